"""Writes lean/Verif/Spec/TestVectors.lean from the numbers in /repo/plonk/gates/gates_test.go."""
import re

src = open("/repo/plonk/gates/gates_test.go").read()
line = lambda pos: src.count("\n", 0, pos) + 1


def table(name):
    m = re.search(r"var " + name + r" = \[\]gl\.QuadraticExtensionVariable\{\n(.*?)\n\}", src, re.S)
    rows = m.group(1).split("\n")
    vals = [re.fullmatch(r'\s*\{gl\.NewVariable\("(\d+)"\), gl\.NewVariable\("(\d+)"\)\},', r).groups() for r in rows]
    return vals, line(m.start()), line(m.end())


out = []
w = out.append
w("import Verif.Field\n")
w("/-!\n# Numbers in `plonk/gates/gates_test.go`\n\nWritten by `tools/gen_testvectors.py`.\n-/\n")
w("set_option autoImplicit false\n\nnamespace Verif.TestVectors\n")
w("/-- Element of the extension with the given coordinates. -/\ndef q (a b : ℕ) : QE := ⟨(a : Fp), (b : Fp)⟩\n")
for name, lean in [("localConstants", "localConstants"), ("localWires", "localWires")] + [
        (g + "GateExpectedConstraints", g) for g in ["publicInput", "baseSum", "arithmetic", "randomAccess", "poseidon",
        "reducingExtension", "reducing", "arithmeticExtension", "mulExtension", "cosetInterpolation", "poseidonMds"]]:
    vals, a, b = table(name)
    w(f"/-- `{name}`, `plonk/gates/gates_test.go:{a}-{b}`. -/\ndef {lean} : List QE := [")
    w(",\n".join(f"  q {x} {y}" for x, y in vals) + "]\n")
m = re.search(r"gates\.NewCosetInterpolationGate\(\s*4,\s*6,\s*\[\]goldilocks\.Element\{(.*?)\n\t\t\t\}", src, re.S)
ws = re.findall(r"goldilocks\.NewElement\((\d+)\)", m.group(1))
w(f"/-- Weights of the interpolation gate, `plonk/gates/gates_test.go:{line(m.start())}-{line(m.end())}`. -/\ndef weights : List ℕ := [")
w(",\n".join("  " + x for x in ws) + "]\n")
w("end Verif.TestVectors")
open("/verif/lean/Verif/Spec/TestVectors.lean", "w").write("\n".join(out) + "\n")
