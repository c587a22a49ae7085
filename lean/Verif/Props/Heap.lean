import Verif.Lemmas.HeapFrame
import Verif.Lemmas.HeapRun
import Verif.Props.Bp
import Verif.Props.P256

/-!
# Pointers

C72 what `Prove` and `Verify` write, and what a program with several proofs observes; C73 methods of `P256` whose receiver is
also an argument.
-/

namespace Verif

open Mem

/-! ### C72: what is written -/

/-- C72: `Verify` changes no existing point except `*InnerProductProof.Params.P`, whatever pointers in the proof are equal to
each other or to pointers elsewhere in the program. -/
theorem C72_verify_writes (E : Ext) (proof : BPProofM) {s s' : Heap} {r : Bool} (h : bpVerifyM E proof s = .ok (r, s'))
    {i : Addr} (hi : i < s.length) (hne : i ≠ proof.IP.Params.P) : s'[i]? = s[i]? :=
  (bpVerifyM_safe (n := s.length) (w := some proof.IP.Params.P) E proof (Or.inr rfl) s r s' (le_refl _) h).2.2 i hi
    (fun e => hne (Option.some.inj e).symm)

/-- C72: the same for `InnerProductProof.Verify`. -/
theorem C72_ip_verify_writes (E : Ext) (proof : IPProofM) {s s' : Heap} {r : Bool} (h : ipVerifyM E proof s = .ok (r, s'))
    {i : Addr} (hi : i < s.length) (hne : i ≠ proof.Params.P) : s'[i]? = s[i]? :=
  (ipVerifyM_safe (n := s.length) (w := some proof.Params.P) E proof (Or.inr rfl) s r s' (le_refl _) h).2.2 i hi
    (fun e => hne (Option.some.inj e).symm)

/-- C72: `Prove` changes no existing point; in particular the parameters can be used again and by several proofs. -/
theorem C72_prove_writes (E : Ext) (rnd : BPRand) (secret : Int) (params : BPParamsM) {s s' : Heap} {r : Option BPProofM}
    (h : proveM E rnd secret params s = .ok (r, s')) {i : Addr} (hi : i < s.length) : s'[i]? = s[i]? :=
  (proveM_safe (n := s.length) (w := none) E rnd secret params s r s' (le_refl _) h).2.2 i hi (by simp)

/-- C72: `Prove` on the heap makes the proof described by the model on values, and the point which `Verify` will overwrite is
new: it is in no other proof, not in the parameters, and not one of the other points of this proof. -/
theorem C72_prove_fresh (E : Ext) (rnd : BPRand) (secret : Int) {params : BPParamsM} {v : BPParams} {s s' : Heap}
    {p : BPProofM} (h : params.Reads s v) (e : proveM E rnd secret params s = .ok (some p, s')) :
    (∃ w, prove E rnd secret v = .ok (some w) ∧ p.Reads s' w) ∧ s.length ≤ p.IP.Params.P ∧ p.IP.Params.P ∉ p.cells := by
  have hs := proveM_sim E rnd secret h
  unfold Mem.Sim at hs
  cases hp : prove E rnd secret v with
  | panic => rw [hp] at hs; simp only at hs; rw [hs] at e; cases e
  | ok o =>
    rw [hp] at hs
    obtain ⟨p', s1, e', -, hr⟩ := hs
    rw [e'] at e
    cases e
    cases hr with
    | some hr =>
      obtain ⟨rp, -, fP, nP, -⟩ := hr
      exact ⟨⟨_, rfl, rp⟩, by simpa using fP, nP⟩

/-- C72: `Verify` on the heap has the verdict of the model on values and stores the value given there, provided
`Params.P` is not the same pointer as one of the points `L`, `R`, `U` of the proof. -/
theorem C72_verify_value (E : Ext) {proof : BPProofM} {w : BPProof} {s : Heap} (h : proof.Reads s w)
    (hP : proof.IP.Params.P ∉ proof.IP.U :: (proof.IP.Ls ++ proof.IP.Rs)) :
    (∀ r P, bpVerify E w = .ok (r, P) → ∃ s', bpVerifyM E proof s = .ok (r, s') ∧ s'[proof.IP.Params.P]? = some P) ∧
    (bpVerify E w = .panic → bpVerifyM E proof s = .panic) := by
  simp only [List.mem_cons, List.mem_append, not_or] at hP
  have hs := bpVerifyM_sim E h.fixed h.IP.Params.P hP.2.1 hP.2.2 hP.1
  unfold Mem.Sim at hs
  refine ⟨fun r P e => ?_, fun e => ?_⟩
  · rw [e] at hs
    obtain ⟨a, s', e', -, rfl, hP'⟩ := hs
    exact ⟨s', e', hP'⟩
  · rw [e] at hs; exact hs

/-! ### C72: programs -/

/-- C72: a program which makes, copies and verifies range proofs in any order observes the verdicts of the value semantics
(`Spec.run`), in which each proof made is an object of its own; it panics exactly if that does. -/
theorem C72_values (E : Ext) {params : BPParamsM} {v : BPParams} {s : Heap} (h : params.Reads s v) (prog : List Stmt) :
    (runM E params prog [] s >>= fun r => .ok r.1) = Spec.run E v prog [] [] := by
  have inv : RunInv s params v [] [] [] [] :=
    ⟨h, rfl, by simp, List.Forall₂.nil, by simp, by simp, by simp⟩
  have hs := runM_sim E prog inv
  unfold Mem.Sim at hs
  cases hr : Spec.run E v prog [] [] with
  | panic => rw [hr] at hs; simp only at hs; rw [hs]; rfl
  | ok vs =>
    rw [hr] at hs
    obtain ⟨a, s', e, rfl⟩ := hs
    rw [e]; rfl

/-- C72: the verdicts on one proof do not depend on the rest of the program.  Whatever a program does with other proofs
made from the same parameters, the verdicts on proof number `k` and its copies are, in order, those of repeated verification
of that proof alone. -/
theorem C72_program (E : Ext) {params : BPParamsM} {v : BPParams} {s s' : Heap} (h : params.Reads s v) {prog : List Stmt}
    {vs : List Bool} (e : runM E params prog [] s = .ok (vs, s')) {k : Nat} {rnd : BPRand} {secret : Int}
    (hk : (Spec.proves prog)[k]? = some (rnd, secret)) :
    vs.length = (Spec.targets prog 0 []).length ∧
    ∃ p, prove E rnd secret v = .ok (some p) ∧
      bpVerifyMany E (Spec.verdictsOf k (Spec.targets prog 0 []) vs).length p =
        .ok (Spec.verdictsOf k (Spec.targets prog 0 []) vs) := by
  have hv := C72_values E h prog
  rw [e, Res.ok_bind] at hv
  obtain ⟨h1, -, h3⟩ := run_verdicts prog hv.symm
  obtain ⟨p, hp, hm⟩ := h3 k rnd secret hk
  simp only [List.length_nil, Nat.zero_add] at h1 hm
  exact ⟨h1, p, hp, hm⟩

/-- C72: a copy of a proof struct shares the point which `Verify` overwrites: if verifying a proof twice gives `r` and then
`r'`, so does verifying a copy of it and then the proof itself. -/
theorem C72_copy (E : Ext) {params : BPParamsM} {v : BPParams} {s : Heap} (h : params.Reads s v) {rnd : BPRand} {secret : Int}
    {p : BPProof} (hp : prove E rnd secret v = .ok (some p)) {r r' : Bool} (hm : bpVerifyMany E 2 p = .ok [r, r']) :
    ∃ s', runM E params [.prove rnd secret, .copy 0, .verify 1, .verify 0] [] s = .ok ([r, r'], s') := by
  have hv := C72_values E h [.prove rnd secret, .copy 0, .verify 1, .verify 0]
  rw [bpVerifyMany] at hm
  obtain ⟨⟨v1, P1⟩, e1, hm⟩ := Res.bind_eq_ok.1 hm
  obtain ⟨vs, hm', hm⟩ := Res.bind_eq_ok.1 hm
  rw [bpVerifyMany] at hm'
  obtain ⟨⟨v2, P2⟩, e2, hm'⟩ := Res.bind_eq_ok.1 hm'
  simp only [bpVerifyMany, Res.ok_bind] at hm'
  cases hm'
  cases hm
  have hrun : Spec.run E v [.prove rnd secret, .copy 0, .verify 1, .verify 0] [] [] = .ok [r, r'] := by
    simp [Spec.run, hp, idx, e1, e2]
  rw [hrun] at hv
  obtain ⟨⟨a, s'⟩, e, e'⟩ := Res.bind_eq_ok.1 hv
  cases e'
  exact ⟨s', e⟩

/-! #### Instances -/

theorem reads_range (pre l post : Heap) : Reads (pre ++ l ++ post) (List.range' pre.length l.length) l := by
  induction l generalizing pre with
  | nil => exact List.Forall₂.nil
  | cons a l ih =>
    rw [List.length_cons, List.range'_succ]
    refine List.Forall₂.cons (by simp) ?_
    have := ih (pre ++ [a])
    rw [List.length_append, List.length_singleton, List.append_assoc pre [a] l, List.singleton_append] at this
    exact this

/-- A heap with the points of a set of parameters. -/
def layout (v : BPParams) : Heap := v.G :: v.H :: v.Gg ++ v.Hh

/-- The parameters on that heap. -/
def layoutParams (v : BPParams) : BPParamsM :=
  { N := v.N, G := 0, H := 1, Gg := List.range' 2 v.Gg.length, Hh := List.range' (2 + v.Gg.length) v.Hh.length }

/-- All parameters occur. -/
theorem layout_reads (v : BPParams) : (layoutParams v).Reads (layout v) v := by
  refine ⟨rfl, by simp [layout, layoutParams], by simp [layout, layoutParams], ?_, ?_⟩
  · have := reads_range [v.G, v.H] v.Gg v.Hh
    simpa [layout, layoutParams] using this
  · have := reads_range (v.G :: v.H :: v.Gg) v.Hh []
    rw [List.append_nil] at this
    have e : (v.G :: v.H :: v.Gg).length = 2 + v.Gg.length := by simp; omega
    rw [e] at this
    exact this

/-- A proof made and verified on that heap: the hypotheses of the theorems above on single calls. -/
example : ∃ (p : BPProofM) (w : BPProof) (s1 s2 : Heap) (P : P256), proveM (idealExt hashOne) exRand' 1 (layoutParams exBP) (layout exBP) =
      .ok (some p, s1) ∧ p.Reads s1 w ∧ p.IP.Params.P ∉ p.IP.U :: (p.IP.Ls ++ p.IP.Rs) ∧ bpVerify (idealExt hashOne) w = .ok (true, P) ∧
    bpVerifyM (idealExt hashOne) p s1 = .ok (true, s2) ∧ (∀ i < (layout exBP).length, s2[i]? = (layout exBP)[i]?) := by
  obtain ⟨w, P, -, -, hv, hp⟩ := exBP_finite
  have key : ∀ {E : Ext} {rnd : BPRand} {secret : Int} {params : BPParamsM} {v : BPParams} {s : Heap}, params.Reads s v →
      prove E rnd secret v = .ok (some w) → ∃ p s1, proveM E rnd secret params s = .ok (some p, s1) := by
    intro E rnd secret params v s h hp
    have hs := proveM_sim E rnd secret h
    unfold Mem.Sim at hs
    rw [hp] at hs
    obtain ⟨o, s1, e1, -, hr⟩ := hs
    cases hr with
    | some hr => exact ⟨_, s1, e1⟩
  obtain ⟨p, s1, e1⟩ := key (layout_reads exBP) hp
  obtain ⟨⟨w', e, hw'⟩, hf, hn⟩ := C72_prove_fresh _ _ _ (layout_reads exBP) e1
  rw [hp] at e
  cases e
  have hc : p.IP.Params.P ∉ p.IP.U :: (p.IP.Ls ++ p.IP.Rs) := by
    intro h
    apply hn
    simp only [List.mem_cons, List.mem_append] at h
    unfold BPProofM.cells
    rcases h with h | h | h <;> simp only [List.mem_append, List.mem_cons, h, true_or, or_true]
  obtain ⟨s2, e2, -⟩ := (C72_verify_value _ hw' hc).1 _ _ hv
  refine ⟨p, w, s1, s2, P, e1, hw', hc, hv, e2, fun i hi => ?_⟩
  have hg : (layout exBP).length ≤ s1.length := (proveM_safe (n := _) (w := none) _ _ _ _ _ _ _ (le_refl _) e1).2.1
  rw [C72_verify_writes _ _ e2 (hi.trans_le hg) (hi.trans_le hf).ne, C72_prove_writes _ _ _ _ e1 hi]

/-- Two proofs for one set of parameters, five verifications, one of them of a copy of the first proof: the verdicts on the
two proofs alternate separately. -/
example : ∃ (E : Ext) (params : BPParamsM) (rnd : BPRand) (s s' : Heap), E.Ok ∧
    runM E params [.prove rnd 1, .prove rnd 1, .verify 0, .verify 1, .copy 0, .verify 2, .verify 1, .verify 0] [] s =
      .ok ([true, true, false, false, true], s') := by
  have hE := idealExt_ok hashOne (fun _ => rfl)
  obtain ⟨proof, P', hw, hf, hv, hp⟩ := exBP_finite
  have hm := C23_bulletproof_alternates hE hw hf hv 3
  rw [bpVerifyMany] at hm
  obtain ⟨⟨v1, P1⟩, e1, hm⟩ := Res.bind_eq_ok.1 hm
  obtain ⟨vs, hm', hm⟩ := Res.bind_eq_ok.1 hm
  rw [bpVerifyMany] at hm'
  obtain ⟨⟨v2, P2⟩, e2, hm'⟩ := Res.bind_eq_ok.1 hm'
  obtain ⟨vs', hm'', hm'⟩ := Res.bind_eq_ok.1 hm'
  rw [bpVerifyMany] at hm''
  obtain ⟨⟨v3, P3⟩, e3, hm''⟩ := Res.bind_eq_ok.1 hm''
  simp only [bpVerifyMany, Res.ok_bind] at hm''
  cases hm''
  cases hm'
  have hlist : [v1, v2, v3] = [true, false, true] := by
    simpa [List.range_succ] using hm
  simp only [List.cons.injEq, and_true] at hlist
  obtain ⟨rfl, rfl, rfl⟩ := hlist
  have h := C72_values (idealExt hashOne) (layout_reads exBP) [.prove exRand' 1, .prove exRand' 1, .verify 0, .verify 1,
    .copy 0, .verify 2, .verify 1, .verify 0]
  have hrun : Spec.run (idealExt hashOne) exBP [.prove exRand' 1, .prove exRand' 1, .verify 0, .verify 1,
      .copy 0, .verify 2, .verify 1, .verify 0] [] [] = .ok [true, true, false, false, true] := by
    simp [Spec.run, hp, idx, e1, e2, e3]
  rw [hrun] at h
  obtain ⟨⟨a, s'⟩, e, e'⟩ := Res.bind_eq_ok.1 h
  cases e'
  exact ⟨_, _, _, _, s', hE, e⟩

/-! ### C73: receivers which are also arguments -/

/-- After a call with receiver `p`, `p` holds the group element `Q`, and nothing else has changed. -/
def Holds (m : Mem Unit) (s : Heap) (p : Addr) (Q : Secp) : Prop :=
  ∃ s' v, m s = .ok ((), s') ∧ s'[p]? = some v ∧ Rep v Q ∧ ∀ i, i ≠ p → s'[i]? = s[i]?

theorem holds_set {m : Mem Unit} {s : Heap} {p : Addr} {c v : P256} {Q : Secp} (h : s[p]? = some c)
    (hm : m s = .ok ((), s.set p v)) (hv : Rep v Q) : Holds m s p Q :=
  ⟨_, v, hm, get_set_self h v, hv, fun _ hi => List.getElem?_set_ne (Ne.symm hi)⟩

/-- C73: `p.Multiply(a, b)` stores the sum in `p` and changes nothing else, also when `p` is `a` or `b` or both. -/
theorem C73_multiply {E : Ext} (hE : E.Ok) {s : Heap} {p a b : Addr} {c va vb : P256} {Q R : Secp} (h : s[p]? = some c)
    (ha : s[a]? = some va) (hb : s[b]? = some vb) (hQ : Rep va Q) (hR : Rep vb R) : Holds (multiplyM E p a b) s p (Q + R) :=
  holds_set h (multiplyM_eq E h ha hb) (multiply_rep hE hQ hR)

/-- `a.Multiply(a, b)` for `3·g` and `4·g`. -/
example := C73_multiply (idealExt_ok hashOne (fun _ => rfl)) (s := [mulG 3, mulG 4]) (p := 0) (a := 0) (b := 1) rfl rfl rfl
  (rep_canonP ((3 : Fn) • secpG)) (rep_canonP ((4 : Fn) • secpG))

/-- C73: the same for `Add`, with the result described by C14. -/
theorem C73_add {s : Heap} {p a b : Addr} {c va vb : P256} {Q R : Secp} (h : s[p]? = some c) (ha : s[a]? = some va)
    (hb : s[b]? = some vb) (hQ : Rep va Q) (hR : Rep vb R) : Holds (addM p a b) s p (addOf Q R) :=
  holds_set h (addM_eq h ha hb) (add_rep hQ hR)

example := C73_add (s := [mulG 3, mulG 4]) (p := 1) (a := 0) (b := 1) rfl rfl rfl (rep_canonP ((3 : Fn) • secpG)) (rep_canonP ((4 : Fn) • secpG))

/-- C73: the same for `ScalarMult`. -/
theorem C73_scalarMult {E : Ext} (hE : E.Ok) {s : Heap} {p a : Addr} {c va : P256} {Q : Secp} (h : s[p]? = some c)
    (ha : s[a]? = some va) (hQ : Rep va Q) (n : Int) : Holds (scalarMultM E p a n) s p (n • Q) :=
  holds_set h (scalarMultM_eq E h ha n) (scalarMult_rep hE hQ n)

example := C73_scalarMult (idealExt_ok hashOne (fun _ => rfl)) (s := [mulG 3]) (p := 0) (a := 0) rfl rfl (rep_canonP ((3 : Fn) • secpG)) (-5)

/-- C73: the same for `Double`. -/
theorem C73_double {E : Ext} (hE : E.Ok) {s : Heap} {p a : Addr} {c va : P256} {Q : Secp} (h : s[p]? = some c)
    (ha : s[a]? = some va) (hQ : Rep va Q) : Holds (doubleM E p a) s p (Q + Q) := by
  refine holds_set h (doubleM_eq E h ha) ?_
  rw [P256.double]
  by_cases h1 : Q = 0
  · rw [if_pos ((hQ.isZero_iff).2 h1), h1, zero_add]; exact rep_infinity
  · rw [if_neg (fun hz => h1 ((hQ.isZero_iff).1 hz))]
    have fa := hQ.fin h1
    exact hE.double_fin _ _ _ (by rw [← fa.eq_mk]; exact fa)

example := C73_double (idealExt_ok hashOne (fun _ => rfl)) (s := [mulG 3]) (p := 0) (a := 0) rfl rfl (rep_canonP ((3 : Fn) • secpG))

/-- C73: for `Neg` it matters: with receiver equal to the argument the result is the inverse of the argument, with another
receiver it is the inverse of what the receiver held before (infinity if the argument is). -/
theorem C73_neg {E : Ext} (hE : E.Ok) {s : Heap} {p a : Addr} {c va : P256} {Q R : Secp} (h : s[p]? = some c)
    (ha : s[a]? = some va) (hQ : Rep c Q) (hR : Rep va R) :
    Holds (negM E p a) s p (if R = 0 then 0 else -Q) ∧ (p = a → Holds (negM E p a) s p (-R)) := by
  have h1 := holds_set h (negM_eq E h ha) (C16_neg_other hE hQ hR)
  refine ⟨h1, ?_⟩
  rintro rfl
  rw [h] at ha
  cases ha
  rw [Rep.unique hQ hR] at h1
  by_cases h0 : R = 0
  · rw [if_pos h0] at h1; rw [h0, neg_zero]; exact h1
  · rw [if_neg h0] at h1; exact h1

/-- Doubling in place: `p.Multiply(p, p)` for the base point. -/
example : ∃ E : Ext, E.Ok ∧ Holds (multiplyM E 0 0 0) [mulG 1] 0 ((1 : Fn) • secpG + (1 : Fn) • secpG) := by
  have hE := idealExt_ok hashOne (fun _ => rfl)
  have hr : Rep (mulG 1) ((1 : Fn) • secpG) := rep_canonP _
  exact ⟨_, hE, C73_multiply hE rfl rfl rfl hr hr⟩

end Verif
