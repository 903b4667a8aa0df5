import Verif.Spec.Benchmark

/-!
# The control flow of the command-line program
-/

set_option autoImplicit false

namespace Verif.Benchmark

open Deserialize JsonModel Spec.Benchmark

theorem orPanic_ok {α : Type} {x : Option α} {a : α} : orPanic x = .ok a ↔ x = some a := by
  cases x <;> simp [orPanic]

theorem orExit_ok {α : Type} {x : Option α} {a : α} : orExit x = .ok a ↔ x = some a := by
  cases x <;> simp [orExit]

theorem bind_ok {α β : Type} {x : Except Stop α} {f : α → Except Stop β} {b : β} :
    (x >>= f) = .ok b ↔ ∃ a, x = .ok a ∧ f a = .ok b := by
  cases x with
  | error e => simp [Bind.bind, Except.bind]
  | ok a => simp [Bind.bind, Except.bind]

theorem load_ok {files : Files} {x : ProofWithPublicInputs Fr QEV × VerifierOnlyCircuitData} : load files = .ok x ↔
    (files.proof.bind readProofWithPublicInputs).bind deserializeProofWithPublicInputs = some x.1 ∧
    (files.verifierOnly.bind readVerifierOnlyCircuitData).bind deserializeVerifierOnlyCircuitData = some x.2 := by
  obtain ⟨a, b⟩ := x
  simp only [load, bind_ok, orPanic_ok, Option.bind_eq_some_iff, pure, Except.pure, Except.ok.injEq, Prod.mk.injEq]
  constructor
  · rintro ⟨p, h1, p', h2, v, h3, v', h4, rfl, rfl⟩
    exact ⟨⟨p, h1, h2⟩, v, h3, h4⟩
  · rintro ⟨⟨p, h1, h2⟩, v, h3, h4⟩
    exact ⟨p, h1, a, h2, v, h3, b, h4, rfl, rfl⟩

theorem run_ok (plonk groth16 : Backend) (orders : List (List Gates.Handler)) (files : Files) (fl : Flags) (o : Outcome) :
    runBenchmark plonk groth16 orders files fl = .ok o ↔
      ∃ raw common x, files.common.bind decodeCommonCircuitData = some raw ∧ readCommonCircuitData raw = some common ∧
        load files = .ok x ∧
        Succeeds plonk groth16 (fun pis => Verifier.define PoseidonGL.poseidon orders common x.1.proof pis x.2)
          x.1.publicInputs fl o := by
  rw [runBenchmark]
  simp only [bind_ok, orPanic_ok]
  constructor
  · rintro ⟨raw, h0, c, hc, x, hx, h⟩
    refine ⟨raw, c, x, h0, hc, hx, ?_⟩
    split at h
    · next hp =>
      rw [bind_ok] at h
      obtain ⟨cs, hcs, h⟩ := h
      simp only [plonkProof, hx, bind_ok, orPanic_ok, orExit_ok, Except.ok.injEq] at h
      obtain ⟨_, rfl, srs, hs, ⟨pk, vk⟩, hk, w, hw, π, hπ, h⟩ := h
      split at h
      · next hv =>
        cases h
        refine .plonk (srs := srs) hp hcs (fun hd => ?_) (fun hd => ?_) hk hw hπ hv
        · simpa [plonkSrs, hd, orPanic_ok] using hs
        · simpa [plonkSrs, hd] using hs
      · cases h
    · split at h
      · next hp =>
        rw [bind_ok] at h
        obtain ⟨cs, hcs, h⟩ := h
        simp only [groth16Proof, hx, bind_ok, orExit_ok, Except.ok.injEq] at h
        obtain ⟨_, rfl, ⟨pk, vk⟩, hk, h⟩ := h
        by_cases hd : fl.dummy = true
        · rw [if_pos hd, Option.map_eq_some_iff] at hk
          obtain ⟨pk, hk, he⟩ := hk
          cases he
          by_cases hs : fl.save = true
          · simp [hs, Bind.bind, Except.bind] at h
          · simp only [hs, Bool.false_and, Bool.false_eq_true, if_false, bind_ok, pure, Except.pure, orPanic_ok, orExit_ok,
              Except.ok.injEq] at h
            obtain ⟨w, hw, π, hπ, rfl⟩ := h
            exact .skipped hp hd (by simpa using hs) hcs hk hw hπ
        · rw [if_neg hd, Option.map_eq_some_iff] at hk
          obtain ⟨⟨pk, vk⟩, hk, he⟩ := hk
          cases he
          simp only [Option.isNone_some, Bool.and_false, Bool.false_eq_true, if_false, bind_ok, pure, Except.pure, orPanic_ok,
            orExit_ok] at h
          obtain ⟨w, hw, π, hπ, h⟩ := h
          split at h
          · next hv =>
            split at h
            · cases h
            · next hl =>
              cases h
              exact .groth16 hp (by simpa using hd) hcs hk hw hπ hv (by omega)
          · cases h
      · cases h
  · rintro ⟨raw, c, x, h0, hc, hx, h⟩
    refine ⟨raw, h0, c, hc, x, hx, ?_⟩
    cases h with
    | @plonk cs srs pk vk w π hp hcs h1 h2 hk hw hπ hv =>
      rw [if_pos hp, hcs]
      simp only [plonkProof, hx, bind_ok, orPanic_ok, orExit_ok, Except.ok.injEq]
      refine ⟨cs, rfl, x, rfl, srs, ?_, (pk, vk), hk, w, hw, π, hπ, by rw [if_pos hv]; rfl⟩
      cases hd : fl.dummy with
      | true => simpa [plonkSrs, orPanic_ok] using h1 hd
      | false => simpa [plonkSrs] using h2 hd
    | @groth16 cs pk vk w π hp hd hcs hk hw hπ hv hl =>
      rw [if_neg (by rw [hp]; decide), if_pos hp, hcs]
      simp only [groth16Proof, hx, bind_ok, orExit_ok, Except.ok.injEq]
      refine ⟨cs, rfl, x, rfl, (pk, some vk), by simp [hd, hk], ?_⟩
      simp only [Option.isNone_some, Bool.and_false, Bool.false_eq_true, if_false, bind_ok, pure, Except.pure, orPanic_ok,
        orExit_ok]
      exact ⟨w, hw, π, hπ, by rw [if_pos hv, if_neg (by omega)]⟩
    | @skipped cs pk w π hp hd hs hcs hk hw hπ =>
      rw [if_neg (by rw [hp]; decide), if_pos hp, hcs]
      simp only [groth16Proof, hx, bind_ok, orExit_ok, Except.ok.injEq]
      refine ⟨cs, rfl, x, rfl, (pk, none), by simp [hd, hk], ?_⟩
      simp only [hs, Bool.false_and, Bool.false_eq_true, if_false, bind_ok, pure, Except.pure, orPanic_ok, orExit_ok,
       ]
      exact ⟨w, hw, π, hπ, trivial⟩

end Verif.Benchmark
