import Verif.Lemmas.Sha256Table
import Verif.Props.BpSound

/-!
# C68: the generators obtained with SHA-256

The other theorems hold for every hash function.  Here the hash function is SHA-256, and the 66 generators
are computed.
-/

namespace Verif
open Finset

/-- C68: with SHA-256 every generator is found: `MapToGroup` returns a finite curve point for each of the 66 seeds
(so no generator is nil, and the errors ignored by `Setup` do not occur). -/
theorem C68_found {E : Ext} (hE : E.Ok) (hs : E.sha256 = Sha256.sha256) {s : Seed} (hv : s.Valid) :
    ∃ p Q, mapToGroup E s.bytes = .ok (some p) ∧ RepFin p Q ∧ Q ≠ 0 := by
  obtain ⟨x, hx⟩ := Option.isSome_iff_exists.1 (seedX_table.1 s (mem_allSeeds hv))
  obtain ⟨p, Q, h1, _, h2⟩ := mapToGroup_firstX hE hs hx
  exact ⟨p, Q, h1, h2, h2.ne_zero⟩

example := C68_found (idealExt_ok _ Sha256.sha256_length) rfl (s := .g 31) (show 31 < 32 by decide)

/-- C68: the 66 generators are pairwise different, also up to sign, and different from `±G`. -/
theorem C68_distinct {E : Ext} (hE : E.Ok) (hs : E.sha256 = Sha256.sha256) {s t : Seed} (hv : s.Valid) (hw : t.Valid)
    {p q : P256} {P Q : Secp} (hp : mapToGroup E s.bytes = .ok (some p)) (hq : mapToGroup E t.bytes = .ok (some q))
    (hP : Rep p P) (hQ : Rep q Q) :
    P ≠ secpG ∧ P ≠ -secpG ∧ (s ≠ t → P ≠ Q ∧ P ≠ -Q) := by
  obtain ⟨x, hx⟩ := Option.isSome_iff_exists.1 (seedX_table.1 s (mem_allSeeds hv))
  obtain ⟨y, hy⟩ := Option.isSome_iff_exists.1 (seedX_table.1 t (mem_allSeeds hw))
  obtain ⟨p', P', h1, h2, h3⟩ := mapToGroup_firstX hE hs hx
  obtain ⟨q', Q', k1, k2, k3⟩ := mapToGroup_firstX hE hs hy
  rw [hp] at h1
  rw [hq] at k1
  injection h1 with h1
  injection h1 with h1
  injection k1 with k1
  injection k1 with k1
  subst h1 k1
  obtain rfl := Rep.unique hP (Or.inr h3)
  obtain rfl := Rep.unique hQ (Or.inr k3)
  have key : ∀ {a b : P256} {A B : Secp}, RepFin a A → RepFin b B → (A = B ∨ A = -B) → a.X = b.X := by
    rintro a b A B ⟨xa, ya, rfl, a1, a2, a3, a4, a5⟩ ⟨xb, yb, rfl, b1, b2, b3, b4, b5⟩ h
    have hX : (xa : SF) = (xb : SF) := by
      rcases h with h | h
      · subst h; exact ((a5.inj b5).1 rfl).1
      · exact ((a5.inj b5.neg).1 h).1
    rw [sf_eq_iff, Int.ModEq, Int.emod_eq_of_lt a1 a2, Int.emod_eq_of_lt b1 b2] at hX
    rw [hX]
  have hG : ∀ h : P = secpG ∨ P = -secpG, False := by
    intro h
    have := key h3 repFin_base h
    rw [h2] at this
    have hxx : seedX s = some secpGx.toNat := by
      have h' : (x : Int) = secpGx := Option.some.inj this
      rw [hx, ← h', Int.toNat_natCast]
    refine (List.nodup_cons.1 seedX_table.2).1 ?_
    rw [← hxx]
    exact List.mem_map_of_mem (mem_allSeeds hv)
  refine ⟨fun h => hG (Or.inl h), fun h => hG (Or.inr h), fun hst => ?_⟩
  have hne : ∀ h : P = Q ∨ P = -Q, False := by
    intro h
    have := key h3 k3 h
    rw [h2, k2] at this
    apply hst
    apply seedX_inj hv hw
    rw [hx, hy]
    have h' : (x : Int) = (y : Int) := Option.some.inj this
    rw [Int.ofNat_inj.1 h']
  exact ⟨fun h => hne (Or.inl h), fun h => hne (Or.inr h)⟩

/-- The generators for the seeds `g 31` and `h 31`. -/
example : ∃ (p q : P256) (P Q : Secp), mapToGroup (idealExt Sha256.sha256) (Seed.bytes (.g 31)) = .ok (some p) ∧
    mapToGroup (idealExt Sha256.sha256) (Seed.bytes (.h 31)) = .ok (some q) ∧ Rep p P ∧ Rep q Q ∧ P ≠ Q := by
  have hE := idealExt_ok _ Sha256.sha256_length
  have v1 : Seed.Valid (.g 31) := show 31 < 32 by decide
  have v2 : Seed.Valid (.h 31) := show 31 < 32 by decide
  obtain ⟨p, P, h1, h2, _⟩ := C68_found hE rfl v1
  obtain ⟨q, Q, h3, h4, _⟩ := C68_found hE rfl v2
  exact ⟨p, q, P, Q, h1, h3, Or.inr h2, Or.inr h4, ((C68_distinct hE rfl v1 v2 h1 h3 (Or.inr h2) (Or.inr h4)).2.2 nofun).1⟩

/-- A list of found generators, dereferenced. -/
theorem deref_list {E : Ext} (f : Nat → List UInt8) {n : Nat} {l : List (Option P256)} (hl : l.length = n)
    (hf : ∀ i < n, ∃ p Q, mapToGroup E (f i) = .ok (some p) ∧ RepFin p Q ∧ Q ≠ 0)
    (h : ∀ i < n, ∃ o, l[i]? = some o ∧ mapToGroup E (f i) = .ok o) :
    ∃ (ps : List P256) (G : Nat → Secp), l.mapM id = some ps ∧ Reps ps (vec n G) ∧
      ∀ i < n, ∃ p, ps[i]? = some p ∧ mapToGroup E (f i) = .ok (some p) ∧ RepFin p (G i) := by
  induction n generalizing l f with
  | zero =>
    obtain rfl := List.length_eq_zero_iff.1 hl
    exact ⟨[], fun _ => 0, rfl, .nil, fun i hi => absurd hi (by omega)⟩
  | succ n ih =>
    cases l with
    | nil => simp at hl
    | cons o l =>
      obtain ⟨ps, G, e1, e2, e3⟩ := ih (fun i => f (i + 1)) (by simpa using hl) (fun i hi => hf (i + 1) (by omega))
        (fun i hi => by simpa using h (i + 1) (by omega))
      obtain ⟨o', h1, h2⟩ := h 0 (by omega)
      obtain ⟨p, Q, h3, h4, _⟩ := hf 0 (by omega)
      rw [h3] at h2
      injection h2 with h2
      simp only [List.getElem?_cons_zero, Option.some.injEq] at h1
      subst h1 h2
      refine ⟨p :: ps, fun i => Nat.casesOn i Q G, ?_, ?_, ?_⟩
      · rw [List.mapM_cons, e1]; rfl
      · rw [vec, List.range_succ_eq_map, List.map_cons, List.map_map]
        exact .cons (Or.inr h4) e2
      · intro i hi
        cases i with
        | zero => exact ⟨p, rfl, h3, h4⟩
        | succ i => simpa using e3 i (by omega)

/-- C68: with SHA-256, for each of the six accepted range ends all pointers returned by `Setup` are non-nil, and the
parameters satisfy the condition on generators of C24, with finite, pairwise different points. -/
theorem C68_setup {E : Ext} (hE : E.Ok) (hs : E.sha256 = Sha256.sha256) (nan : Int) (b : BitVec 64)
    (hb : b.toInt ∈ [2, 4, 16, 256, 65536, 2 ^ 32]) :
    ∃ (s : BPSetup) (params : BPParams) (k : Nat) (G Hh : Nat → Secp) (H : Secp),
      setup E nan b = .ok (some s) ∧ s.deref = .ok params ∧ b.toInt = 2 ^ 2 ^ k ∧
      Generators params (2 ^ k) G Hh H ∧ H ≠ 0 ∧ (∀ i < 2 ^ k, G i ≠ 0 ∧ Hh i ≠ 0 ∧ H ≠ G i ∧ H ≠ Hh i) ∧
      ∀ i < 2 ^ k, ∀ j < 2 ^ k, G i ≠ Hh j ∧ (i ≠ j → G i ≠ G j ∧ Hh i ≠ Hh j) := by
  have hb' : b.toInt ≠ -2 ^ 63 := by
    intro h
    rw [h] at hb
    revert hb
    decide
  obtain ⟨s, h1⟩ := (C10_accepts_iff hE nan b hb').2 hb
  obtain ⟨k, n1, n2, n3, n4, n5⟩ := C10_result hE nan b hb' h1
  obtain ⟨t1, t2⟩ := C56_table hE nan b hb' h1
  have hk : 2 ^ k ≤ 32 := by
    have : (2 : Int) ^ 2 ^ k ≤ 2 ^ 32 := by
      rw [← n2]
      simp only [List.mem_cons, List.not_mem_nil, or_false] at hb
      rcases hb with h | h | h | h | h | h <;> rw [h] <;> norm_num
    exact (Nat.pow_le_pow_iff_right (a := 2) (by norm_num)).1 (by exact_mod_cast this)
  have hlt : ∀ i : Nat, i < 2 ^ k → (i : Int) < s.N := by
    intro i hi; rw [n1]; exact_mod_cast hi
  obtain ⟨H, QH, m1, m2, m3⟩ := C68_found hE hs (s := .H) trivial
  obtain ⟨gs, G, g1, g2, g3⟩ := deref_list (fun i => Seed.bytes (.g i)) n3
    (fun i hi => C68_found hE hs (s := .g i) (show i < 32 by omega)) (fun i hi => (t2 i (hlt i hi)).1)
  obtain ⟨hs', Hh, e1, e2, e3⟩ := deref_list (fun i => Seed.bytes (.h i)) n4
    (fun i hi => C68_found hE hs (s := .h i) (show i < 32 by omega)) (fun i hi => (t2 i (hlt i hi)).2)
  rw [m1] at t1
  injection t1 with t1
  refine ⟨s, { N := s.N, G := s.G, H := H, Gg := gs, Hh := hs' }, k, G, Hh, QH, h1, ?_, n2,
    ⟨by rw [n1]; norm_cast, g2, e2, Or.inr m2⟩, m3, ?_, ?_⟩
  · rw [BPSetup.deref, ← t1, g1, e1]; rfl
  · intro i hi
    obtain ⟨p, _, p2, p3⟩ := g3 i hi
    obtain ⟨q, _, q2, q3⟩ := e3 i hi
    refine ⟨p3.ne_zero, q3.ne_zero, ?_, ?_⟩
    · exact ((C68_distinct hE hs (s := .H) (t := .g i) trivial (show i < 32 by omega) m1 p2 (Or.inr m2) (Or.inr p3)).2.2
        (by simp)).1
    · exact ((C68_distinct hE hs (s := .H) (t := .h i) trivial (show i < 32 by omega) m1 q2 (Or.inr m2) (Or.inr q3)).2.2
        (by simp)).1
  · intro i hi j hj
    obtain ⟨p, _, p2, p3⟩ := g3 i hi
    obtain ⟨p', _, p2', p3'⟩ := g3 j hj
    obtain ⟨q, _, q2, q3⟩ := e3 i hi
    obtain ⟨q', _, q2', q3'⟩ := e3 j hj
    have vi : i < 32 := by omega
    have vj : j < 32 := by omega
    refine ⟨?_, fun hij => ⟨?_, ?_⟩⟩
    · exact ((C68_distinct hE hs (s := .g i) (t := .h j) vi vj p2 q2' (Or.inr p3) (Or.inr q3')).2.2 (by simp)).1
    · exact ((C68_distinct hE hs (s := .g i) (t := .g j) vi vj p2 p2' (Or.inr p3) (Or.inr p3')).2.2 (by simpa using hij)).1
    · exact ((C68_distinct hE hs (s := .h i) (t := .h j) vi vj q2 q2' (Or.inr q3) (Or.inr q3')).2.2 (by simpa using hij)).1

example := C68_setup (idealExt_ok _ Sha256.sha256_length) rfl 0 (BitVec.ofInt 64 256) (by decide)

/-- C68: the whole chain with SHA-256.  For each of the six accepted range ends `b`, `Setup(b)` succeeds, and a proof
made by `Prove` with its parameters is accepted exactly when `0 ≤ secret < b`, if the challenge `z` is not zero and
no exceptional addition occurs. -/
theorem C68_end_to_end {E : Ext} (hE : E.Ok) (hs : E.sha256 = Sha256.sha256) (nan : Int) (b : BitVec 64)
    (hb : b.toInt ∈ [2, 4, 16, 256, 65536, 2 ^ 32]) :
    ∃ (s : BPSetup) (params : BPParams) (n : Nat) (G Hh : Nat → Secp) (H : Secp),
      setup E nan b = .ok (some s) ∧ s.deref = .ok params ∧ b.toInt = 2 ^ n ∧ Generators params n G Hh H ∧
      ∀ (rnd : BPRand) (secret : Int) (proof : BPProof), rnd.sL.length = n → rnd.sR.length = n →
        prove E rnd secret params = .ok (some proof) → ¬ ORDER ∣ (hashBP E proof.A proof.S).2 →
        AddOk ((secret : Fn) • secpG) ((rnd.gamma : Fn) • H) → NoExceptionalAdd E rnd secret proof n G Hh H →
        -(2 ^ n * (ORDER - 1)) ≤ secret → secret < 2 ^ n * ORDER →
        ∃ v P', bpVerify E proof = .ok (v, P') ∧ (v = true ↔ 0 ≤ secret ∧ secret < b.toInt) := by
  obtain ⟨s, params, k, G, Hh, H, h1, h2, h3, h4, _⟩ := C68_setup hE hs nan b hb
  refine ⟨s, params, 2 ^ k, G, Hh, H, h1, h2, h3, h4, ?_⟩
  intro rnd secret proof l1 l2 hp hz hV hadd b1 b2
  by_cases hr : 0 ≤ secret ∧ secret < 2 ^ 2 ^ k
  · obtain ⟨P', e⟩ := C24_in_range hE rfl h4 l1 l2 hp hz hV hadd hr.1 hr.2
    exact ⟨true, P', e, by rw [h3]; simpa using hr⟩
  · obtain ⟨P', e⟩ := C24_out_of_range hE rfl h4 l1 l2 hp hz hV hadd hr b1 b2
    exact ⟨false, P', e, by rw [h3]; simpa using hr⟩

example := C68_end_to_end (idealExt_ok _ Sha256.sha256_length) rfl 0 (BitVec.ofInt 64 (2 ^ 32)) (by decide)

/-- C68: the same for generic ranges.  For all int64 bounds `SetupGeneric` succeeds, and a proof made by `ProveGeneric`
with its parameters is accepted exactly when `max(a, b-2^32) ≤ x < min(b, a+2^32)`, if the challenges are not zero and
no exceptional addition occurs. -/
theorem C68_generic_end_to_end {E : Ext} (hE : E.Ok) (hs : E.sha256 = Sha256.sha256) (nan a b : Int)
    (ha : |a| < 2 ^ 64) (hb : |b| < 2 ^ 64) :
    ∃ (s : BPSetup) (params : BPParams) (G Hh : Nat → Secp) (H : Secp),
      setupGeneric E nan a b = .ok (some (a, b, s, s)) ∧ s.deref = .ok params ∧ Generators params 32 G Hh H ∧
      ∀ (r1 r2 : BPRand) (x : Int) (proof : BPRPProof), r1.sL.length = 32 → r1.sR.length = 32 → r2.sL.length = 32 →
        r2.sR.length = 32 → |x| < 2 ^ 64 → proveGeneric E r1 r2 x ⟨a, b, params, params⟩ = .ok (some proof) →
        ¬ ORDER ∣ (hashBP E proof.P1.A proof.P1.S).2 → ¬ ORDER ∣ (hashBP E proof.P2.A proof.P2.S).2 →
        AddOk (((x - b + 2 ^ 32 : Int) : Fn) • secpG) ((r1.gamma : Fn) • H) →
        AddOk (((x - a : Int) : Fn) • secpG) ((r2.gamma : Fn) • H) →
        NoExceptionalAdd E r1 (x - b + 2 ^ 32) proof.P1 32 G Hh H →
        NoExceptionalAdd E r2 (x - a) proof.P2 32 G Hh H →
        ∃ v p', bprpVerify E proof = .ok (v, p') ∧
          (v = true ↔ max a (b - 2 ^ 32) ≤ x ∧ x < min b (a + 2 ^ 32)) := by
  have hB : (BitVec.ofInt 64 (2 ^ 32)).toInt = 2 ^ 32 := by decide
  obtain ⟨s, h1, h2, _⟩ := C25_setup hE nan a b
  obtain ⟨s', params, k, G, Hh, H, k1, k2, k3, k4, _⟩ := C68_setup hE hs nan (BitVec.ofInt 64 (2 ^ 32))
    (by rw [hB]; decide)
  rw [h2] at k1
  injection k1 with k1
  injection k1 with k1
  subst k1
  have hk : 2 ^ k = 32 := by
    rw [hB] at k3
    have h2' : (2 : Nat) ^ (2 ^ k) = 2 ^ 32 := by exact_mod_cast k3.symm
    exact Nat.pow_right_injective (le_refl 2) h2'
  rw [hk] at k4
  refine ⟨s, params, G, Hh, H, h1, k2, k4, ?_⟩
  intro r1 r2 x proof l1 l2 l3 l4 hx hp z1 z2 v1 v2 n1 n2
  exact C25_generic_verdict hE hp hx ha hb ⟨⟨G, Hh, H, k4, v1, n1⟩, l1, l2, z1⟩ ⟨⟨G, Hh, H, k4, v2, n2⟩, l3, l4, z2⟩

example := C68_generic_end_to_end (idealExt_ok _ Sha256.sha256_length) rfl 0 (-18) 200 (by decide) (by decide)

/-- C68: with SHA-256, `Prove` does not panic for want of the generator `u`. -/
theorem C68_u {E : Ext} (hE : E.Ok) (hs : E.sha256 = Sha256.sha256) : ∃ u, mapToGroup E SEEDU = .ok (some u) := by
  obtain ⟨p, _, h, _⟩ := C68_found hE hs (s := .U) trivial
  exact ⟨p, h⟩

/-- The hypotheses are satisfiable: the ideal external functions with SHA-256. -/
example : ∃ E : Ext, E.Ok ∧ E.sha256 = Sha256.sha256 ∧ (BitVec.ofNat 64 256).toInt ∈ [2, 4, 16, 256, 65536, 2 ^ 32] ∧
    Seed.Valid (.g 31) :=
  ⟨idealExt Sha256.sha256, idealExt_ok _ Sha256.sha256_length, rfl, by decide, show 31 < 32 by decide⟩

end Verif
