#!/usr/bin/env python3
"""Writes lean/Verif/Spec/Testdata.lean: the circuit data in testdata/*/ of the repository."""
import json, re
REPO = '/repo/testdata/'
def ints(l): return '[' + ', '.join(str(x) for x in l) + ']'
def fc(x): return '⟨%d, %d, %d, %d⟩' % (x['rate_bits'], x['cap_height'], x['proof_of_work_bits'], x['num_query_rounds'])
def wrap(s, ind):
    out = []; line = ' ' * ind
    for w in s.split(' '):
        if len(line) + len(w) > 122: out.append(line.rstrip()); line = ' ' * ind
        line += w + ' '
    out.append(line.rstrip())
    return '\n'.join(out)
def gate(s):
    n = [int(x) for x in re.findall(r'\d+', s.split('_phantom')[0].split('PhantomData')[0])]
    name = re.match(r'\w+', s).group(0)
    if name == 'CosetInterpolationGate': return '.cosetInterpolation %d %d %s' % (n[0], n[1], ints(n[2:]))
    m = {'NoopGate': 'noop', 'ConstantGate': 'constant', 'PoseidonMdsGate': 'poseidonMds', 'PublicInputGate': 'publicInput',
         'BaseSumGate': 'baseSum', 'ReducingExtensionGate': 'reducingExtension', 'ReducingGate': 'reducing',
         'ArithmeticExtensionGate': 'arithmeticExtension', 'ArithmeticGate': 'arithmetic', 'MulExtensionGate': 'mulExtension',
         'ExponentiationGate': 'exponentiation', 'RandomAccessGate': 'randomAccess', 'PoseidonGate': 'poseidon'}[name]
    return '.' + ' '.join([m] + [str(x) for x in n])
out = '''import Verif.Model.Gates

/-!
# The circuits in `testdata`

Generated by `tools/gen_testdata.py` from `testdata/*/common_circuit_data.json` and `verifier_only_circuit_data.json`.
-/

set_option autoImplicit false

namespace Verif.Spec.Testdata

'''
for name, d in (('decodeBlock', 'decode_block'), ('step', 'step')):
    c = json.load(open(REPO + d + '/common_circuit_data.json')); v = json.load(open(REPO + d + '/verifier_only_circuit_data.json'))
    g = c['config']; q = c['fri_params']; s = c['selectors_info']
    out += '/-- `testdata/%s/common_circuit_data.json`. -/\ndef %s : CommonCircuitData where\n' % (d, name)
    out += '  config := ⟨%d, %d, %d, %s, %d, %d, %s, %d, %s⟩\n' % (g['num_wires'], g['num_routed_wires'], g['num_constants'],
        str(g['use_base_arithmetic_gate']).lower(), g['security_bits'], g['num_challenges'], str(g['zero_knowledge']).lower(),
        g['max_quotient_degree_factor'], fc(g['fri_config']))
    out += '  friParams := ⟨%s, %s, %d, %s⟩\n' % (fc(q['config']), str(q['hiding']).lower(), q['degree_bits'], ints(q['reduction_arity_bits']))
    out += '  gateIds := [\n' + ',\n'.join('    ' + json.dumps(x) for x in c['gates']) + ']\n'
    out += '  selectorsInfo := ⟨%s, [%s]⟩\n' % (ints(s['selector_indices']), ', '.join('(%d, %d)' % (x['start'], x['end']) for x in s['groups']))
    out += '  degreeBits := %d\n  quotientDegreeFactor := %d\n  numGateConstraints := %d\n  numConstants := %d\n  numPublicInputs := %d\n' % (
        q['degree_bits'], c['quotient_degree_factor'], c['num_gate_constraints'], c['num_constants'], c['num_public_inputs'])
    out += '  kIs :=\n' + wrap(ints(c['k_is']), 4) + '\n  numPartialProducts := %d\n\n' % c['num_partial_products']
    out += '/-- The gates named in it. -/\ndef %sGates : List Gates.Gate := [\n' % name + wrap(', '.join(gate(x) for x in c['gates']), 2) + ']\n\n'
    out += '/-- `testdata/%s/verifier_only_circuit_data.json`. -/\ndef %sKey : VerifierOnlyCircuitData where\n' % (d, name)
    out += '  constantSigmasCap := [\n' + ',\n'.join('    ' + x for x in v['constants_sigmas_cap']) + ']\n'
    out += '  circuitDigest := ' + v['circuit_digest'] + '\n\n'
out += 'end Verif.Spec.Testdata\n'
open('/verif/lean/Verif/Spec/Testdata.lean', 'w').write(out)
