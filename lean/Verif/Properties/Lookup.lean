import Verif.Proofs.Lookup
import Verif.Properties.Cost

/-!
# Property C95: the lookup argument behind the commit-based range checker
-/

set_option autoImplicit false

namespace Verif

open Circ Lookup PoseidonGL Spec.Layout Spec.Testdata Spec.Prover
open Spec.Template (Sized)
open Spec.Verifier (prob)

/-- **C95** if a value is out of range, then whatever limbs and counts the prover commits to, the check passes for at most
`2 * 2^w + m` of the `r` challenges, `m` being the number of limbs.  (`w` is the number of bits of a limb.) -/
theorem C95_sound (w : ℕ) (hw : 2 ^ w ≤ r) (log : List (Fr × ℕ)) (hlog : ∀ e ∈ log, w * decompSize e.2 w ≤ 253)
    (hl : limbCount w (log.map Prod.snd) < r) (e : Fr × ℕ) (he : e ∈ log) (hbad : 2 ^ (w * decompSize e.2 w) ≤ e.1.val)
    (queries : List Fr) (counts : Fin (2 ^ w) → Fr) (hc : Sat (commitPhase w log) (queries, counts)) :
    queries.length = limbCount w (log.map Prod.snd) ∧
    prob (fun challenge => Sat (challengePhase w challenge queries counts) ()) ≤
      ((2 * 2 ^ w + limbCount w (log.map Prod.snd) : ℕ) : ℚ) / r := by
  classical
  obtain ⟨limbs, rfl, h⟩ := (sat_commit _ _ _ _).1 hc
  have hn := length_queries h
  refine ⟨hn, ?_⟩
  obtain ⟨s, hs, hs'⟩ : ∃ s ∈ limbs.flatten, 2 ^ w ≤ s.val := by
    by_contra hcon
    push Not at hcon
    exact absurd (bounded_of_limbs hlog h hcon e he) (by omega)
  rw [prob, show Fintype.card Fr = r from ZMod.card r]
  refine div_le_div_of_nonneg_right ?_ (Nat.cast_nonneg _)
  rw [← hn]
  exact_mod_cast card_bad w hw _ (by omega) counts s hs hs' _ fun c hc => (Finset.mem_filter.1 hc).2

/-- 70000 does not fit into one limb of 16 bits: whatever the prover commits to, at most 131073 challenges pass. -/
example (queries : List Fr) (counts : Fin (2 ^ 16) → Fr) (h : Sat (commitPhase 16 [(70000, 16)]) (queries, counts)) :
    Spec.Verifier.prob (fun challenge => Sat (challengePhase 16 challenge queries counts) ()) ≤ 131073 / r := by
  have := (C95_sound 16 (by norm_num [r]) [(70000, 16)] (by simp [decompSize]) (by norm_num [limbCount, decompSize, r]) (70000, 16)
    List.mem_cons_self (by rw [show ((70000 : Fr), 16).1.val = 70000 from rfl]; norm_num [decompSize]) queries counts h).2
  norm_num [limbCount, decompSize] at this
  exact_mod_cast this

/-- **C95** if all values are in range, the hints of gnark pass for every challenge outside the table. -/
theorem C95_complete (w : ℕ) (hw : 2 ^ w ≤ r) (log : List (Fr × ℕ)) (h : ∀ e ∈ log, e.1.val < 2 ^ (w * decompSize e.2 w))
    (challenge : Fr) (hc : 2 ^ w ≤ challenge.val) : honest (Lookup.check w challenge log) = some () := by
  rw [Lookup.check, honest_bind, honest_commit w hw log h, Option.bind_some]
  refine honest_challenge w hw challenge hc _ fun q hq => ?_
  obtain ⟨e, -, he⟩ := List.mem_flatMap.1 hq
  exact limbsOf_lt hw q he

/-- Values of 17 and 3 bits in limbs of 16 bits. -/
example (challenge : Fr) (hc : 2 ^ 16 ≤ challenge.val) : honest (Lookup.check 16 challenge [(70000, 32), (5, 16)]) = some () := by
  refine C95_complete 16 (by norm_num [r]) _ ?_ challenge hc
  intro e he
  simp only [List.mem_cons, List.not_mem_nil, or_false] at he
  rcases he with rfl | rfl
  · rw [show ((70000 : Fr), 32).1.val = 70000 from rfl]; norm_num [decompSize]
  · rw [show ((5 : Fr), 16).1.val = 5 from rfl]; norm_num [decompSize]

/-- **C95** `DivUnchecked` of gnark accepts every quotient of 0 by 0 and none of a nonzero value by 0: a challenge in the table
with count zero leaves the summand free, which is why the bound includes the table. -/
theorem C95_division (a x : Fr) : Sat (apiDivUnchecked 0 0) x ∧ (a ≠ 0 → ¬ Sat (apiDivUnchecked a 0) x) := by
  simp only [sat_div, mul_zero]
  exact ⟨trivial, fun h h' => h h'.symm⟩

/-- Number of limbs requested by a list of calls. -/
theorem limbCount_widths (l : List Item) (h : ∀ n ∈ widths l, n = 32 ∨ n = 144 ∨ n = 192 ∨ n = 48) :
    limbCount 16 (widths l) = 2 * (Spec.Cost.tally l).2.2.1 + 9 * (Spec.Cost.tally l).2.2.2.1 +
      12 * (Spec.Cost.tally l).2.2.2.2.1 + 3 * (Spec.Cost.tally l).2.2.2.2.2 := by
  induction l with
  | nil => rfl
  | cons x l ih =>
    have e : Spec.Cost.tally (x :: l) = Spec.Cost.item x + Spec.Cost.tally l := by
      simp only [Spec.Cost.tally, List.map_cons, List.sum_cons]
    rw [e]
    cases x with
    | check n =>
      have hw : widths (.check n :: l) = n :: widths l := rfl
      rw [hw, List.forall_mem_cons] at h
      rw [hw, limbCount, List.map_cons, List.sum_cons]
      rw [limbCount] at ih
      rw [ih h.2]
      rcases h.1 with rfl | rfl | rfl | rfl <;> simp [Spec.Cost.item, decompSize] <;> omega
    | hint n => simpa [Spec.Cost.item, widths] using ih h
    | constraint => simpa [Spec.Cost.item, widths] using ih h
    | panic => simpa [Spec.Cost.item, widths] using ih h

/-- **C95** for the circuits of `testdata`, with either builder: if the inputs satisfy the verifier circuit, the values requested by
some run pass the lookup argument for all but 65536 challenges; if they do not, then for every run of the circuit without range
checks, and all limbs and counts the prover commits to, the argument passes with probability below `2^-231`. -/
theorem C95_verifier (ft : FrontendType) (orders : List (List Gates.Handler)) (hlen : orders.length = 13)
    (ho : ∀ o ∈ orders, o.Perm Gates.gateRegexHandlers) (c : CommonCircuitData)
    (hc : c = decodeBlock ∨ c = step) (proof : Proof Fr QEV) (pis : List Fr) (hs : Sized c proof pis)
    (vd : VerifierOnlyCircuitData) (hv : vd.constantSigmasCap.length = 16) :
    (Sat (Verifier.define poseidon orders c proof pis vd) () →
      ∃ log, Out (Verifier.define poseidon orders c proof pis vd) () log ∧
        ∀ challenge : Fr, 65536 ≤ challenge.val →
          honest (Lookup.check (gnarkBasewidth ft (log.map Prod.snd)) challenge log) = some ()) ∧
    (¬ Sat (Verifier.define poseidon orders c proof pis vd) () →
      ∀ log, Out (Verifier.define poseidon orders c proof pis vd) () log → ∀ queries counts,
        Sat (commitPhase (gnarkBasewidth ft (log.map Prod.snd)) log) (queries, counts) →
        prob (fun challenge => Sat (challengePhase (gnarkBasewidth ft (log.map Prod.snd)) challenge queries counts) ()) <
          1 / 2 ^ 231) := by
  have hr : (2 : ℕ) ^ 253 < r := by norm_num [r]
  have h16 : (2 : ℕ) ^ 16 ≤ r := le_trans (by norm_num) hr.le
  -- properties of the requests of a run
  have key : ∀ log, Out (Verifier.define poseidon orders c proof pis vd) () log →
      gnarkBasewidth ft (log.map Prod.snd) = 16 ∧ (∀ e ∈ log, e.2 % 16 = 0 ∧ e.2 ≤ 192) ∧
      limbCount 16 (log.map Prod.snd) ≤ 3 * 2 ^ 20 := by
    intro log hlog
    obtain ⟨l, hl, hw⟩ := emits_of_out hlog
    obtain ⟨-, hok, -⟩ := C94_commit ft orders hlen ho c hc proof pis hs vd hv
    have hok := hok l hl
    have aux : ∀ gates, Spec.Verifier.Supported c gates vd → c.config.numChallenges ≠ 0 →
        c.config.friConfig.numQueryRounds = c.friParams.config.numQueryRounds → c.friParams.config.proofOfWorkBits = 16 →
        (∀ k, Spec.Cost.verify c gates c.friParams.reductionArityBits.length = k →
          2 * k.2.2.1 + 9 * k.2.2.2.1 + 12 * k.2.2.2.2.1 + 3 * k.2.2.2.2.2 ≤ 3 * 2 ^ 20) →
        Verifier.define poseidon orders c proof pis vd = Verifier.verify poseidon c gates proof pis vd →
        (∀ n ∈ widths l, n = 32 ∨ n = 144 ∨ n = 192 ∨ n = 48) ∧ limbCount 16 (widths l) ≤ 3 * 2 ^ 20 := by
      intro gates hsup h0 hr hp hk he
      rw [he] at hl
      have hwd : ∀ n ∈ widths l, n = 32 ∨ n = 144 ∨ n = 192 ∨ n = 48 := fun n hn => by
        have := C90_widths c gates proof pis vd (by omega) l hl n hn
        omega
      refine ⟨hwd, ?_⟩
      rw [limbCount_widths l hwd, (C94_sized c gates vd proof pis hsup hs h0 hr).2 l hl]
      exact hk _ rfl
    have hlim : (∀ n ∈ widths l, n = 32 ∨ n = 144 ∨ n = 192 ∨ n = 48) ∧ limbCount 16 (widths l) ≤ 3 * 2 ^ 20 := by
      rcases hc with rfl | rfl
      · refine aux decodeBlockGates { C92_supported.1 with cap := hv } (by decide) rfl rfl ?_
          (C92_define poseidon orders hlen ho proof pis vd).1
        rintro k rfl
        rw [C94_testdata.1]; norm_num
      · refine aux stepGates { C92_supported.2 with cap := hv } (by decide) rfl rfl ?_
          (C92_define poseidon orders hlen ho proof pis vd).2
        rintro k rfl
        decide +kernel
    have hlen' : (log.map Prod.snd).length ≤ 2 ^ 50 := by
      have : ∀ l : List ℕ, (∀ n ∈ l, 0 < n) → l.length ≤ limbCount 16 l := by
        intro l
        induction l with
        | nil => simp
        | cons a l ih =>
          intro h
          rw [List.forall_mem_cons] at h
          have := ih h.2
          simp only [limbCount, List.map_cons, List.sum_cons, List.length_cons] at this ⊢
          have : 1 ≤ decompSize a 16 := by rw [decompSize]; omega
          omega
      rw [← hw]
      refine (this _ fun n hn => ?_).trans (hlim.2.trans (by norm_num))
      have := hlim.1 n hn
      omega
    rw [hw] at hok hlim
    refine ⟨(gnarkBasewidth_of_ok ft (fun n hn => ?_) hlen' hok).1, fun e he => ?_, hlim.2⟩
    · have := hlim.1 n hn; omega
    · have := hlim.1 e.2 (List.mem_map_of_mem he)
      omega
  have hd : ∀ log : List (Fr × ℕ), (∀ e ∈ log, e.2 % 16 = 0 ∧ e.2 ≤ 192) → ∀ e ∈ log, 16 * decompSize e.2 16 = e.2 := by
    intro log h e he
    have := h e he
    rw [decompSize]; omega
  constructor
  · intro hsat
    obtain ⟨log, hout, hin⟩ := (sat_iff_out _ _).1 hsat
    obtain ⟨k1, k2, -⟩ := key log hout
    refine ⟨log, hout, fun challenge hch => ?_⟩
    rw [k1]
    refine C95_complete 16 h16 log (fun e he => ?_) challenge hch
    rw [hd log k2 e he]
    exact hin e he
  · intro hsat log hout queries counts hcom
    obtain ⟨k1, k2, k3⟩ := key log hout
    obtain ⟨e, he, hbad⟩ : ∃ e ∈ log, 2 ^ e.2 ≤ e.1.val := by
      by_contra hcon
      push Not at hcon
      exact hsat ((sat_iff_out _ _).2 ⟨log, hout, hcon⟩)
    generalize gnarkBasewidth ft (log.map Prod.snd) = w at *
    have hw : 2 ^ w ≤ r := by rw [k1]; exact h16
    have := (C95_sound w hw log (fun e he => by rw [k1, hd log k2 e he]; exact (k2 e he).2.trans (by norm_num))
      (by rw [k1]; exact lt_of_le_of_lt k3 (lt_trans (by norm_num) hr)) e he (by rw [k1, hd log k2 e he]; exact hbad)
      queries counts hcom).2
    refine lt_of_le_of_lt this ?_
    rw [k1, div_lt_div_iff₀ (by exact_mod_cast (lt_trans (by norm_num) hr)) (by positivity)]
    have h5 : (2 * 2 ^ 16 + limbCount 16 (log.map Prod.snd)) * 2 ^ 231 < 1 * r :=
      lt_of_le_of_lt (Nat.mul_le_mul_right _ (Nat.add_le_add_left k3 _)) (lt_trans (by norm_num) hr)
    exact_mod_cast h5

/-- A value of 17 bits with a limb of 16 bits: two limbs are out of the table or the sum is wrong. -/
example : ¬ ∃ q counts, Sat (commitPhase 16 [(65536, 16)]) ([q], counts) ∧ q.val < 2 ^ 16 := by
  rintro ⟨q, counts, h, hq⟩
  obtain ⟨limbs, h1, h2⟩ := (sat_commit _ _ _ _).1 h
  have := bounded_of_limbs (w := 16) (by simp [decompSize]) h2 (fun x hx => by
    rw [← h1, List.mem_singleton] at hx; rwa [hx]) _ List.mem_cons_self
  rw [show ((65536 : Fr), 16).1.val = 65536 from rfl] at this
  norm_num [decompSize] at this

end Verif
