import Verif.Lemmas.BpHide
import Verif.Props.Sha256

/-!
# C69: a range proof does not reveal the secret

Probabilities over the randomness of `Prove` are counts in the finite set `Rnd n` (`C69_total`).  The theorems
hold for every hash function: the two distributions of proof objects are compared as they are, no
random-oracle model is involved.
-/

namespace Verif
open Finset

/-- `Prove` returned a proof whose challenge `x` is not zero. -/
def Usable (E : Ext) (r : Res (Option BPProof)) : Prop :=
  ∃ proof, r = .ok (some proof) ∧ ¬ ORDER ∣ (hashBP E proof.T1 proof.T2).1

/-- C69: the number of possible draws. -/
theorem C69_total (n : Nat) : Nat.card (Rnd n) = secpNn ^ (2 * n + 5) := Rnd.card_rnd

/-- Generators are multiples of `H` (the group has prime order). -/
theorem hideCtx_exists {E : Ext} (hE : E.Ok) {params : BPParams} {n : Nat} {G Hh : Nat → Secp} {H : Secp}
    (hgen : Generators params n G Hh H) (hH : H ≠ 0) :
    ∃ c : HideCtx n, c.Ok ∧ c.E = E ∧ c.params = params := by
  obtain ⟨d, hd⟩ := secp_generator H hH secpG
  choose g hg using fun i => secp_generator H hH (G i)
  choose h hh using fun i => secp_generator H hH (Hh i)
  exact ⟨⟨E, params, G, Hh, H, d, g, h⟩, ⟨hE, hgen.N, hgen.Gg, hgen.Hh, hgen.H, hH, hd, hg, hh⟩, rfl, rfl⟩

/-- C69: whatever is looked at in the result of `Prove` (any set `D` of results), it occurs for the secret `v`
at most as often as for the secret `v'`, up to `22` out of every `ORDER` draws and the draws for which `Prove`
fails or the challenge `x` vanishes. -/
theorem C69_hiding {E : Ext} (hE : E.Ok) {params : BPParams} {n : Nat} {G Hh : Nat → Secp} {H : Secp}
    (hgen : Generators params n G Hh H) (hH : H ≠ 0) {v v' : Int} (hv : 0 ≤ v ∧ v < 2 ^ n)
    (hv' : 0 ≤ v' ∧ v' < 2 ^ n) (D : Set (Res (Option BPProof))) :
    {w : Rnd n | prove E w.toBP v params ∈ D}.ncard ≤ {w : Rnd n | prove E w.toBP v' params ∈ D}.ncard +
      (22 * secpNn ^ (2 * n + 4) + {w : Rnd n | ¬ Usable E (prove E w.toBP v params)}.ncard) := by
  obtain ⟨c, hc, rfl, rfl⟩ := hideCtx_exists hE hgen hH
  let I : Set (Rnd n) := {w | c.ideal v w ∈ D ∧ (c.x v w : Fn) ≠ 0}
  have h1 : {w : Rnd n | prove c.E w.toBP v c.params ∈ D} ⊆
      I ∪ ({w | ¬ c.Regular v w} ∪ {w | ¬ Usable c.E (prove c.E w.toBP v c.params)}) := by
    intro w hw
    by_cases hr : c.Regular v w
    · by_cases hu : Usable c.E (prove c.E w.toBP v c.params)
      · refine Or.inl ⟨?_, ?_⟩
        · rw [← HideCtx.prove_eq_ideal hc hr]; exact hw
        · obtain ⟨proof, e, hx⟩ := hu
          rw [HideCtx.prove_eq_ideal hc hr] at e
          obtain ⟨e1, e2⟩ := proveCore_T e
          rw [e1, e2] at hx
          rw [Ne, ZMod.intCast_zmod_eq_zero_iff_dvd, ← ORDER_eq]
          exact hx
      · exact Or.inr (Or.inr hu)
    · exact Or.inr (Or.inl hr)
  have h2 : c.swap v v' '' I ⊆ {w : Rnd n | prove c.E w.toBP v' c.params ∈ D} ∪ {w | ¬ c.Regular v' w} := by
    rintro _ ⟨w, ⟨hw, hx⟩, rfl⟩
    by_cases hr : c.Regular v' (c.swap v v' w)
    · refine Or.inl ?_
      show prove c.E _ v' c.params ∈ D
      rw [HideCtx.prove_eq_ideal hc hr, HideCtx.swap_ideal hv hv' hx]
      exact hw
    · exact Or.inr hr
  have h3 : (c.swap v v' '' I).ncard = I.ncard :=
    Set.ncard_image_of_injective _ fun a b h => by
      rw [← HideCtx.swap_swap (c := c) (v := v) (v' := v') (w := a), h, HideCtx.swap_swap]
  have k1 := (Set.ncard_le_ncard h1 (Set.toFinite _)).trans (Set.ncard_union_le _ _)
  have k2 := Set.ncard_union_le {w | ¬ c.Regular v w} {w : Rnd n | ¬ Usable c.E (prove c.E w.toBP v c.params)}
  have k3 := (Set.ncard_le_ncard h2 (Set.toFinite _)).trans (Set.ncard_union_le _ _)
  have k4 := HideCtx.irregular_card c v
  have k5 := HideCtx.irregular_card c v'
  omega

/-- C69: the same for the parameters which `Setup` computes with SHA-256. -/
theorem C69_setup {E : Ext} (hE : E.Ok) (hs : E.sha256 = Sha256.sha256) (nan : Int) (b : BitVec 64)
    (hb : b.toInt ∈ [2, 4, 16, 256, 65536, 2 ^ 32]) :
    ∃ (s : BPSetup) (params : BPParams) (n : Nat),
      setup E nan b = .ok (some s) ∧ s.deref = .ok params ∧ b.toInt = 2 ^ n ∧
      ∀ v v' : Int, 0 ≤ v → v < b.toInt → 0 ≤ v' → v' < b.toInt → ∀ D : Set (Res (Option BPProof)),
        {w : Rnd n | prove E w.toBP v params ∈ D}.ncard ≤ {w : Rnd n | prove E w.toBP v' params ∈ D}.ncard +
          (22 * secpNn ^ (2 * n + 4) + {w : Rnd n | ¬ Usable E (prove E w.toBP v params)}.ncard) := by
  obtain ⟨s, params, k, G, Hh, H, h1, h2, h3, h4, h5, _⟩ := C68_setup hE hs nan b hb
  refine ⟨s, params, 2 ^ k, h1, h2, h3, fun v v' a1 a2 a3 a4 D => ?_⟩
  rw [h3] at a2 a4
  exact C69_hiding hE h4 h5 ⟨a1, a2⟩ ⟨a3, a4⟩ D

example := C69_setup (idealExt_ok _ Sha256.sha256_length) rfl 0 (BitVec.ofInt 64 (2 ^ 32)) (by decide)

/-- Counting pairs. -/
theorem ncard_pairs {α β : Type} [Finite α] [Fintype β] (P : α → β → Prop) :
    {p : α × β | P p.1 p.2}.ncard = ∑ b : β, {a | P a b}.ncard := by
  let e : {p : α × β | P p.1 p.2} ≃ Σ b : β, {a | P a b} :=
    ⟨fun p => ⟨p.1.2, p.1.1, p.2⟩, fun q => ⟨(q.2.1, q.1), q.2.2⟩, fun _ => rfl, fun _ => rfl⟩
  rw [← Nat.card_coe_set_eq, Nat.card_congr e, Nat.card_sigma]
  exact sum_congr rfl fun b _ => Nat.card_coe_set_eq _

theorem ncard_pairs' {α β : Type} [Fintype α] [Finite β] (P : α → β → Prop) :
    {p : α × β | P p.1 p.2}.ncard = ∑ a : α, {b | P a b}.ncard := by
  let e : {p : α × β | P p.1 p.2} ≃ Σ a : α, {b | P a b} :=
    ⟨fun p => ⟨p.1.1, p.1.2, p.2⟩, fun q => ⟨(q.1, q.2.1), q.2.2⟩, fun _ => rfl, fun _ => rfl⟩
  rw [← Nat.card_coe_set_eq, Nat.card_congr e, Nat.card_sigma]
  exact sum_congr rfl fun b _ => Nat.card_coe_set_eq _

/-- `ProveGeneric` as a function of its two halves. -/
def joinHalves (p1 p2 : Res (Option BPProof)) : Res (Option BPRPProof) := do
  let p1 ← p1
  match p1 with
  | none => .ok none
  | some p1 => do
    let p2 ← p2
    match p2 with
    | none => .ok none
    | some p2 => .ok (some ⟨p1, p2⟩)

/-- C69 for generic intervals: two secrets which lie in the interval of C25 give the same distribution, up to
`44` out of every `ORDER` pairs of draws and the pairs for which a half fails or has challenge zero. -/
theorem C69_generic {E : Ext} (hE : E.Ok) {gp : BPRP} {n : Nat} {G1 Hh1 G2 Hh2 : Nat → Secp} {H1 H2 : Secp}
    (hg1 : Generators gp.BP1 n G1 Hh1 H1) (hH1 : H1 ≠ 0) (hg2 : Generators gp.BP2 n G2 Hh2 H2) (hH2 : H2 ≠ 0)
    (hn : (2 : Int) ^ n = 2 ^ 32) {v v' : Int}
    (hv : max gp.A (gp.B - 2 ^ 32) ≤ v ∧ v < min gp.B (gp.A + 2 ^ 32))
    (hv' : max gp.A (gp.B - 2 ^ 32) ≤ v' ∧ v' < min gp.B (gp.A + 2 ^ 32)) (D : Set (Res (Option BPRPProof))) :
    {w : Rnd n × Rnd n | proveGeneric E w.1.toBP w.2.toBP v gp ∈ D}.ncard ≤
      {w : Rnd n × Rnd n | proveGeneric E w.1.toBP w.2.toBP v' gp ∈ D}.ncard +
      secpNn ^ (2 * n + 5) * (44 * secpNn ^ (2 * n + 4) +
        {w : Rnd n | ¬ Usable E (prove E w.toBP (v - gp.B + 2 ^ 32) gp.BP1)}.ncard +
        {w : Rnd n | ¬ Usable E (prove E w.toBP (v - gp.A) gp.BP2)}.ncard) := by
  have : Fintype (Rnd n) := Fintype.ofFinite _
  have hcard : Fintype.card (Rnd n) = secpNn ^ (2 * n + 5) := by
    rw [← Nat.card_eq_fintype_card]; exact C69_total n
  have hj : ∀ (u : Int) (w : Rnd n × Rnd n), proveGeneric E w.1.toBP w.2.toBP u gp =
      joinHalves (prove E w.1.toBP (u - gp.B + 2 ^ 32) gp.BP1) (prove E w.2.toBP (u - gp.A) gp.BP2) := fun u w => rfl
  simp only [hj]
  set B1 := 22 * secpNn ^ (2 * n + 4) + {w : Rnd n | ¬ Usable E (prove E w.toBP (v - gp.B + 2 ^ 32) gp.BP1)}.ncard
    with hB1
  set B2 := 22 * secpNn ^ (2 * n + 4) + {w : Rnd n | ¬ Usable E (prove E w.toBP (v - gp.A) gp.BP2)}.ncard with hB2
  have r1 : 0 ≤ v - gp.B + 2 ^ 32 ∧ v - gp.B + 2 ^ 32 < 2 ^ n := by omega
  have r1' : 0 ≤ v' - gp.B + 2 ^ 32 ∧ v' - gp.B + 2 ^ 32 < 2 ^ n := by omega
  have r2 : 0 ≤ v - gp.A ∧ v - gp.A < 2 ^ n := by omega
  have r2' : 0 ≤ v' - gp.A ∧ v' - gp.A < 2 ^ n := by omega
  have s1 : {w : Rnd n × Rnd n | joinHalves (prove E w.1.toBP (v - gp.B + 2 ^ 32) gp.BP1)
        (prove E w.2.toBP (v - gp.A) gp.BP2) ∈ D}.ncard ≤
      {w : Rnd n × Rnd n | joinHalves (prove E w.1.toBP (v' - gp.B + 2 ^ 32) gp.BP1)
        (prove E w.2.toBP (v - gp.A) gp.BP2) ∈ D}.ncard + secpNn ^ (2 * n + 5) * B1 := by
    rw [ncard_pairs (fun a b : Rnd n => joinHalves (prove E a.toBP (v - gp.B + 2 ^ 32) gp.BP1)
        (prove E b.toBP (v - gp.A) gp.BP2) ∈ D),
      ncard_pairs (fun a b : Rnd n => joinHalves (prove E a.toBP (v' - gp.B + 2 ^ 32) gp.BP1)
        (prove E b.toBP (v - gp.A) gp.BP2) ∈ D), ← hcard, ← smul_eq_mul, ← card_univ, ← sum_const, ← sum_add_distrib]
    exact sum_le_sum fun b _ => C69_hiding hE hg1 hH1 r1 r1' {p | joinHalves p (prove E b.toBP (v - gp.A) gp.BP2) ∈ D}
  have s2 : {w : Rnd n × Rnd n | joinHalves (prove E w.1.toBP (v' - gp.B + 2 ^ 32) gp.BP1)
        (prove E w.2.toBP (v - gp.A) gp.BP2) ∈ D}.ncard ≤
      {w : Rnd n × Rnd n | joinHalves (prove E w.1.toBP (v' - gp.B + 2 ^ 32) gp.BP1)
        (prove E w.2.toBP (v' - gp.A) gp.BP2) ∈ D}.ncard + secpNn ^ (2 * n + 5) * B2 := by
    rw [ncard_pairs' (fun a b : Rnd n => joinHalves (prove E a.toBP (v' - gp.B + 2 ^ 32) gp.BP1)
        (prove E b.toBP (v - gp.A) gp.BP2) ∈ D),
      ncard_pairs' (fun a b : Rnd n => joinHalves (prove E a.toBP (v' - gp.B + 2 ^ 32) gp.BP1)
        (prove E b.toBP (v' - gp.A) gp.BP2) ∈ D), ← hcard, ← smul_eq_mul, ← card_univ, ← sum_const, ← sum_add_distrib]
    exact sum_le_sum fun a _ => C69_hiding hE hg2 hH2 r2 r2'
      {p | joinHalves (prove E a.toBP (v' - gp.B + 2 ^ 32) gp.BP1) p ∈ D}
  refine s1.trans ((Nat.add_le_add_right s2 _).trans (le_of_eq ?_))
  rw [hB1, hB2]
  ring

/-- Draws for one more. -/
theorem ncard_cons {α : Type} {k : Nat} (P : (Fin (k + 1) → α) → Prop) :
    {W | P W}.ncard = {p : α × (Fin k → α) | P (Fin.cons p.1 p.2)}.ncard := by
  let e : {W | P W} ≃ {p : α × (Fin k → α) | P (Fin.cons p.1 p.2)} :=
    ⟨fun W => ⟨(W.1 0, Fin.tail W.1), by show P _; rw [Fin.cons_self_tail]; exact W.2⟩, fun p => ⟨Fin.cons p.1.1 p.1.2, p.2⟩,
      fun W => Subtype.ext (Fin.cons_self_tail _), fun p => Subtype.ext (by simp)⟩
  rw [← Nat.card_coe_set_eq, Nat.card_congr e, Nat.card_coe_set_eq]

/-- Several results with their own randomness: the differences add up. -/
theorem ncard_many {α β : Type} [Finite α] : ∀ {k : Nat} (f f' : Fin k → α → β) (e : Fin k → Nat),
    (∀ i (D : Set β), {a | f i a ∈ D}.ncard ≤ {a | f' i a ∈ D}.ncard + e i) → ∀ D : Set (Fin k → β),
    {W : Fin k → α | (fun i => f i (W i)) ∈ D}.ncard ≤
      {W : Fin k → α | (fun i => f' i (W i)) ∈ D}.ncard + Nat.card α ^ (k - 1) * ∑ i, e i
  | 0, f, f', e, _, D => by
    have : (fun W : Fin 0 → α => (fun i => f i (W i))) = fun W => (fun i => f' i (W i)) := by
      funext W i; exact i.elim0
    exact (le_of_eq (congrArg (fun g => {W : Fin 0 → α | g W ∈ D}.ncard) this)).trans (Nat.le_add_right _ _)
  | k + 1, f, f', e, h, D => by
    have : Fintype α := Fintype.ofFinite _
    have : Fintype (Fin k → α) := Fintype.ofFinite _
    have cons : ∀ (g : Fin (k + 1) → α → β) (a : α) (W : Fin k → α),
        (fun i => g i ((Fin.cons a W : Fin (k + 1) → α) i)) = Fin.cons (g 0 a) fun i => g i.succ (W i) := by
      intro g a W
      funext i
      refine Fin.cases ?_ (fun i => ?_) i
      · rfl
      · rfl
    rw [ncard_cons, ncard_cons]
    simp only [cons]
    have s1 : {p : α × (Fin k → α) | (Fin.cons (f 0 p.1) fun i => f i.succ (p.2 i) : Fin (k + 1) → β) ∈ D}.ncard ≤
        {p : α × (Fin k → α) | (Fin.cons (f' 0 p.1) fun i => f i.succ (p.2 i) : Fin (k + 1) → β) ∈ D}.ncard +
          Nat.card α ^ k * e 0 := by
      rw [ncard_pairs (fun a (W : Fin k → α) => (Fin.cons (f 0 a) fun i => f i.succ (W i) : Fin (k + 1) → β) ∈ D),
        ncard_pairs (fun a (W : Fin k → α) => (Fin.cons (f' 0 a) fun i => f i.succ (W i) : Fin (k + 1) → β) ∈ D)]
      have hc : Nat.card α ^ k = Fintype.card (Fin k → α) := by
        rw [← Nat.card_eq_fintype_card, Nat.card_fun, Nat.card_fin]
      rw [hc, ← smul_eq_mul, ← card_univ, ← sum_const, ← sum_add_distrib]
      exact sum_le_sum fun W _ => h 0 {b | (Fin.cons b fun i => f i.succ (W i) : Fin (k + 1) → β) ∈ D}
    have s2 : {p : α × (Fin k → α) | (Fin.cons (f' 0 p.1) fun i => f i.succ (p.2 i) : Fin (k + 1) → β) ∈ D}.ncard ≤
        {p : α × (Fin k → α) | (Fin.cons (f' 0 p.1) fun i => f' i.succ (p.2 i) : Fin (k + 1) → β) ∈ D}.ncard +
          Nat.card α * (Nat.card α ^ (k - 1) * ∑ i : Fin k, e i.succ) := by
      rw [ncard_pairs' (fun a (W : Fin k → α) => (Fin.cons (f' 0 a) fun i => f i.succ (W i) : Fin (k + 1) → β) ∈ D),
        ncard_pairs' (fun a (W : Fin k → α) => (Fin.cons (f' 0 a) fun i => f' i.succ (W i) : Fin (k + 1) → β) ∈ D),
        Nat.card_eq_fintype_card, ← smul_eq_mul, ← card_univ, ← sum_const, ← sum_add_distrib, card_univ, ← Nat.card_eq_fintype_card]
      exact sum_le_sum fun a _ => ncard_many (fun i => f i.succ) (fun i => f' i.succ) (fun i => e i.succ) (fun i => h i.succ)
        {b | (Fin.cons (f' 0 a) b : Fin (k + 1) → β) ∈ D}
    refine s1.trans ((Nat.add_le_add_right s2 _).trans (le_of_eq ?_))
    rw [Fin.sum_univ_succ, Nat.add_sub_cancel]
    cases k with
    | zero => simp
    | succ k => rw [Nat.add_sub_cancel]; ring

/-- C69 for several proofs: whatever is looked at in `k` proofs with the same parameters (whether two of them are for the same secret, say),
it occurs for the secrets `v` as often as for any other secrets `v'`; the exceptions of the single proofs add up. -/
theorem C69_many {E : Ext} (hE : E.Ok) {params : BPParams} {n : Nat} {G Hh : Nat → Secp} {H : Secp}
    (hgen : Generators params n G Hh H) (hH : H ≠ 0) {k : Nat} {v v' : Fin k → Int} (hv : ∀ i, 0 ≤ v i ∧ v i < 2 ^ n)
    (hv' : ∀ i, 0 ≤ v' i ∧ v' i < 2 ^ n) (D : Set (Fin k → Res (Option BPProof))) :
    {W : Fin k → Rnd n | (fun i => prove E (W i).toBP (v i) params) ∈ D}.ncard ≤
      {W : Fin k → Rnd n | (fun i => prove E (W i).toBP (v' i) params) ∈ D}.ncard +
      secpNn ^ ((2 * n + 5) * (k - 1)) *
        ∑ i, (22 * secpNn ^ (2 * n + 4) + {w : Rnd n | ¬ Usable E (prove E w.toBP (v i) params)}.ncard) := by
  have := ncard_many (fun i (w : Rnd n) => prove E w.toBP (v i) params) (fun i w => prove E w.toBP (v' i) params) _
    (fun i D => C69_hiding hE hgen hH (hv i) (hv' i) D) D
  rw [C69_total, ← pow_mul] at this
  exact this

/-- Two proofs for the secret 1, or proofs for the secrets 1 and 2: they cannot be told apart (so proofs of one prover are not linked by their
secrets). -/
example {E : Ext} (hE : E.Ok) {params : BPParams} {G Hh : Nat → Secp} {H : Secp} (hgen : Generators params 2 G Hh H) (hH : H ≠ 0) :=
  C69_many hE hgen hH (v := ![1, 1]) (v' := ![1, 2]) (by intro i; fin_cases i <;> decide) (by intro i; fin_cases i <;> decide)

/-- The hypotheses are satisfiable: generators `G`, `2G`, …, `H = 5G` for two bits, secrets 1 and 2. -/
example : ∃ (E : Ext) (params : BPParams) (G Hh : Nat → Secp) (H : Secp), E.Ok ∧ Generators params 2 G Hh H ∧ H ≠ 0 ∧
    (0 ≤ (1 : Int) ∧ (1 : Int) < 2 ^ 2) ∧ (0 ≤ (2 : Int) ∧ (2 : Int) < 2 ^ 2) := by
  let p : Nat → Secp := fun i => (i + 1) • secpG
  refine ⟨idealExt Sha256.sha256, ⟨2, canonP secpG, canonP (p 4), [canonP (p 0), canonP (p 1)],
    [canonP (p 2), canonP (p 3)]⟩, p, fun i => p (i + 2), p 4, idealExt_ok _ Sha256.sha256_length,
    ⟨rfl, ?_, ?_, rep_canonP _⟩, ?_, by decide, by decide⟩
  · exact .cons (rep_canonP _) (.cons (rep_canonP _) .nil)
  · exact .cons (rep_canonP _) (.cons (rep_canonP _) .nil)
  · show (5 : Nat) • secpG ≠ 0
    rw [← zmod_smul_natCast]
    refine smul_ne_zero ?_ secpG_ne_zero
    decide +kernel

end Verif
