import Verif.Lemmas.GoProve
import Verif.Props.Bp
import Verif.Props.CcsSet
import Verif.Props.CcsUL

/-!
# Provers whose randomness source fails

C75: no prover returns a proof unless every call of `rand.Int` it made succeeded.
-/

namespace Verif
open Spec

/-! ### `bulletproofs` -/

/-- C75: `Prove` returns exactly if all its `2 N + 5` draws succeed, and `Prove` with the numbers drawn (in the order
gamma, alpha, `sL`, `sR`, rho, tau1, tau2) returns; then it returns the same. -/
theorem C75_prove {E : Ext} {rd : Draws} {secret : Int} {params : BPParams} {o : Option BPProof} :
    goProve E rd secret params = .ok o ↔
      ∃ rnd, BPDrawn rd params.N.toNat rnd ∧ prove E rnd secret params = .ok o := by
  constructor
  · intro h
    obtain ⟨rnd, hr⟩ := goProve_ok h
    exact ⟨rnd, hr, by rw [← goProve_drawn E secret params hr, h]⟩
  · rintro ⟨rnd, hr, h⟩
    rw [goProve_drawn E secret params hr, h]

/-- C75: if one of the first `2 N + 5` calls of `rand.Int` fails, `Prove` panics, for any secret and parameters. -/
theorem C75_failure {E : Ext} {rd : Draws} (secret : Int) (params : BPParams) {k : Nat}
    (hk : k < 2 * params.N.toNat + 5) (h : rd k = none) : goProve E rd secret params = .panic := by
  cases hp : goProve E rd secret params with
  | panic => rfl
  | ok o =>
    obtain ⟨rnd, ⟨hL, hR, hr⟩, _⟩ := C75_prove.1 hp
    have hl : k < (bpOrder rnd).length := by
      simp only [bpOrder, List.length_append, hL, hR, List.length_cons, List.length_nil]
      omega
    rw [hr k hk, List.getElem?_eq_getElem hl] at h
    cases h

/-- C75: with all draws successful, `Prove` is the function of the numbers drawn which the other theorems are about;
later calls of `rand.Int` do not matter. -/
theorem C75_success {E : Ext} {rd : Draws} (secret : Int) (params : BPParams) {rnd : BPRand}
    (h : BPDrawn rd params.N.toNat rnd) : goProve E rd secret params = prove E rnd secret params :=
  goProve_drawn E secret params h

/-- The draws of the honest proof `exBP_finite`. -/
example : BPDrawn (fun i => [1, 1, 1, 1, -2, 0, 2, 1, 1][i]?) exBP.N.toNat exRand' := ⟨rfl, rfl, fun _ _ => rfl⟩

/-- C75: `ProveGeneric` returns a proof exactly if the draws of both halves succeed, the second half using the draws
after those of the first. -/
theorem C75_generic {E : Ext} {rd : Draws} {secret : Int} {params : BPRP} {o : BPRPProof} :
    goProveGeneric E rd secret params = .ok (some o) ↔
      ∃ r1 r2, BPDrawn rd params.BP1.N.toNat r1 ∧
        BPDrawn (fun i => rd (2 * params.BP1.N.toNat + 5 + i)) params.BP2.N.toNat r2 ∧
        proveGeneric E r1 r2 secret params = .ok (some o) := by
  have e : rd.from (5 + 2 * params.BP1.N.toNat) = fun i => rd (2 * params.BP1.N.toNat + 5 + i) := by
    funext i; rw [Draws.from, Nat.add_comm 5]
  constructor
  · intro h
    simp only [goProveGeneric, Res.bind_eq_ok] at h
    obtain ⟨p1, h1, h⟩ := h
    cases p1 with
    | none => cases h
    | some p1 =>
      simp only [Res.bind_eq_ok] at h
      obtain ⟨p2, h2, h⟩ := h
      cases p2 with
      | none => cases h
      | some p2 =>
        rw [e] at h2
        obtain ⟨r1, d1, q1⟩ := C75_prove.1 h1
        obtain ⟨r2, d2, q2⟩ := C75_prove.1 h2
        refine ⟨r1, r2, d1, d2, ?_⟩
        simp only [proveGeneric, q1, q2, Res.ok_bind]
        exact h
  · rintro ⟨r1, r2, d1, d2, h⟩
    simp only [goProveGeneric, e, C75_success _ _ d1, C75_success _ _ d2]
    exact h

/-- The draws `gamma = 1, alpha = 1, sL = [1, 1], sR = [-2, 0], rho = 2, tau1 = tau2 = 1` give a proof which is
accepted. -/
example : ∃ (E : Ext) (proof : BPProof) (P' : P256),
    goProve E (fun i => [1, 1, 1, 1, -2, 0, 2, 1, 1][i]?) 1 exBP = .ok (some proof) ∧
    bpVerify E proof = .ok (true, P') := by
  obtain ⟨proof, P', _, _, hv, hp⟩ := exBP_finite
  exact ⟨_, proof, P', C75_prove.2 ⟨exRand', ⟨rfl, rfl, fun _ _ => rfl⟩, hp⟩, hv⟩

/-- The same draws with the last one failing. -/
example (E : Ext) : goProve E (fun i => [1, 1, 1, 1, -2, 0, 2, 1][i]?) 1 exBP = .panic :=
  C75_failure 1 exBP (k := 8) (by decide) rfl

/-! ### `ccs08` -/

/-- C75: `ProveSet` returns a proof exactly if its four draws succeed and the proof is the one for the numbers drawn (in
the order `m`, `v`, `s`, `t`). -/
theorem C75_set {sha : List UInt8 → List UInt8} {rd : Draws} {x r : Int} {p : ParamsSet} {o : ProofSet} :
    goProveSet sha rd x r p = .ok (some o) ↔
      ∃ m v s t, SetDrawn rd m v s t ∧ proveSet sha x r p m v s t = .ok (some o) := by
  constructor
  · intro h
    obtain ⟨m, v, s, t, hd⟩ := goProveSet_ok h
    exact ⟨m, v, s, t, hd, by rw [← goProveSet_drawn sha x r p hd, h]⟩
  · rintro ⟨m, v, s, t, hd, h⟩
    rw [goProveSet_drawn sha x r p hd, h]

/-- C75: the error return of `ProveSet` does not depend on the randomness: it happens exactly for an `x` without
signature. -/
theorem C75_set_error {sha : List UInt8 → List UInt8} {rd : Draws} {x r : Int} {p : ParamsSet} :
    goProveSet sha rd x r p = .ok none ↔ ∀ A, (x, A) ∉ p.signatures := by
  have hl : p.signatures.lookup x = none ↔ ∀ A, (x, A) ∉ p.signatures := by
    rw [List.lookup_eq_none_iff]
    constructor
    · intro h A hA; simpa using h _ hA
    · rintro h ⟨y, A⟩ hA
      rw [bne_iff_ne]
      rintro rfl
      exact h A hA
  rw [← hl, goProveSet]
  cases p.signatures.lookup x with
  | none => simp
  | some A => simp [Res.bind_eq_ok]

/-- C75: if one of the four draws fails, `ProveSet` panics for every element with a signature. -/
theorem C75_set_failure {sha : List UInt8 → List UInt8} {rd : Draws} {x : Int} (r : Int) {p : ParamsSet} {k : Nat}
    (hk : k < 4) (h : rd k = none) {A : Option TwistPoint} (hx : (x, A) ∈ p.signatures) :
    goProveSet sha rd x r p = .panic := by
  cases hp : goProveSet sha rd x r p with
  | panic => rfl
  | ok o =>
    cases o with
    | none => exact absurd hx (C75_set_error.1 hp A)
    | some o =>
      obtain ⟨m, v, s, t, hd, _⟩ := C75_set.1 hp
      rw [hd k hk, List.getElem?_eq_getElem hk] at h
      cases h

/-- C75: `ProveUL` returns a proof exactly if its `3 l + 1` draws succeed and the proof is the one for the numbers drawn
(in the order `m`, `v₀`, `s₀`, `t₀`, `v₁`, …). -/
theorem C75_ul {sha : List UInt8 → List UInt8} {rd : Draws} {x r : Int} {p : ParamsUL} {o : ProofUL} :
    goProveUL sha rd x r p = .ok (some o) ↔
      ∃ w, ULDrawn rd p.l.toNat w ∧ proveUL sha x r p w.m w.v w.s w.t = .ok (some o) := by
  have hlen : ∀ ds, decompose x p.u p.l = .ok ds → ds.length = p.l.toNat := fun ds h => decompose_length h
  constructor
  · intro h
    obtain ⟨w, hw⟩ := goProveUL_ok h
    have h' := h
    rw [goProveUL_drawn sha x r p hw] at h'
    simp only [goProveUL, Res.bind_eq_ok] at h
    obtain ⟨ds, hd, _⟩ := h
    exact ⟨w, hlen ds hd ▸ hw ds hd, h'⟩
  · rintro ⟨w, hw, h⟩
    rw [goProveUL_drawn sha x r p (fun ds hd => (hlen ds hd).symm ▸ hw), h]

/-- C75: if one of these draws fails, `ProveUL` returns no proof. -/
theorem C75_ul_failure {sha : List UInt8 → List UInt8} {rd : Draws} {x r : Int} {p : ParamsUL} {k : Nat}
    (hk : k < 3 * p.l.toNat + 1) (h : rd k = none) (o : ProofUL) : goProveUL sha rd x r p ≠ .ok (some o) := by
  intro hp
  obtain ⟨w, ⟨h0, hw⟩, _⟩ := C75_ul.1 hp
  by_cases hk0 : k = 0
  · subst hk0; rw [h0] at h; cases h
  obtain ⟨h1, h2, h3⟩ := hw ((k - 1) / 3) (by omega)
  have : k = 3 * ((k - 1) / 3) + 1 ∨ k = 3 * ((k - 1) / 3) + 2 ∨ k = 3 * ((k - 1) / 3) + 3 := by omega
  rcases this with e | e | e
  · rw [← e, h] at h1; cases h1
  · rw [← e, h] at h2; cases h2
  · rw [← e, h] at h3; cases h3

/-- The proof of `setExample` comes from the draws 11, 13, 17, 19. -/
example (p : ParamsSet) : goProveSet (fun _ => List.replicate 32 77) (fun i => [11, 13, 17, 19][i]?) 5 3 p =
    proveSet (fun _ => List.replicate 32 77) 5 3 p 11 13 17 19 :=
  goProveSet_drawn _ _ _ _ (fun _ _ => rfl)

/-- With the third draw failing, there is no proof for 5. -/
example (sha : List UInt8 → List UInt8) (A : TwistPoint) (H : TwistPoint) (kp : KeygenResult) :
    goProveSet sha (fun i => [some 11, some 13, none, some 19].getD i none) 5 3 ⟨[(5, some A)], H, kp⟩ = .panic :=
  C75_set_failure 3 (k := 2) (by decide) rfl (List.mem_singleton.2 rfl)

/-- Draws for a proof with two digits. -/
example : ULDrawn (fun i => [1, 2, 3, 4, 5, 6, 7][i]?) 2 ⟨1, fun i => if i = 0 then 2 else 5, fun i => if i = 0 then 3 else 6,
    fun i => if i = 0 then 4 else 7⟩ := by
  refine ⟨rfl, fun i hi => ?_⟩
  have : i = 0 ∨ i = 1 := by omega
  rcases this with rfl | rfl <;> exact ⟨rfl, rfl, rfl⟩

end Verif
