import Verif.Lemmas.BpHonest
import Verif.Spec.Rnd
import Mathlib.Data.Set.Card
import Mathlib.Data.Fintype.BigOperators

/-!
# What a range proof reveals

An ideal prover (`HideCtx.ideal`) which differs from `Prove` only for exceptional randomness (`Regular`), and a
change of randomness (`HideCtx.swap`) which turns its proof for one secret into the same proof for another.
-/

namespace Verif
open Finset

namespace Rnd
variable {n : Nat}

/-- Everything but one of the five scalars. -/
abbrev Rest (n : Nat) := Fn × Fn × Fn × Fn × (Fin n → Fn) × (Fin n → Fn)

def eGamma : Rnd n ≃ Fn × Rest n where
  toFun w := (w.gamma, w.alpha, w.rho, w.tau1, w.tau2, w.sL, w.sR)
  invFun p := ⟨p.1, p.2.1, p.2.2.1, p.2.2.2.1, p.2.2.2.2.1, p.2.2.2.2.2.1, p.2.2.2.2.2.2⟩
  left_inv _ := rfl
  right_inv _ := rfl

def eAlpha : Rnd n ≃ Fn × Rest n where
  toFun w := (w.alpha, w.gamma, w.rho, w.tau1, w.tau2, w.sL, w.sR)
  invFun p := ⟨p.2.1, p.1, p.2.2.1, p.2.2.2.1, p.2.2.2.2.1, p.2.2.2.2.2.1, p.2.2.2.2.2.2⟩
  left_inv _ := rfl
  right_inv _ := rfl

def eRho : Rnd n ≃ Fn × Rest n where
  toFun w := (w.rho, w.gamma, w.alpha, w.tau1, w.tau2, w.sL, w.sR)
  invFun p := ⟨p.2.1, p.2.2.1, p.1, p.2.2.2.1, p.2.2.2.2.1, p.2.2.2.2.2.1, p.2.2.2.2.2.2⟩
  left_inv _ := rfl
  right_inv _ := rfl

def eTau1 : Rnd n ≃ Fn × Rest n where
  toFun w := (w.tau1, w.gamma, w.alpha, w.rho, w.tau2, w.sL, w.sR)
  invFun p := ⟨p.2.1, p.2.2.1, p.2.2.2.1, p.1, p.2.2.2.2.1, p.2.2.2.2.2.1, p.2.2.2.2.2.2⟩
  left_inv _ := rfl
  right_inv _ := rfl

def eTau2 : Rnd n ≃ Fn × Rest n where
  toFun w := (w.tau2, w.gamma, w.alpha, w.rho, w.tau1, w.sL, w.sR)
  invFun p := ⟨p.2.1, p.2.2.1, p.2.2.2.1, p.2.2.2.2.1, p.1, p.2.2.2.2.2.1, p.2.2.2.2.2.2⟩
  left_inv _ := rfl
  right_inv _ := rfl

instance : Finite (Rnd n) := Finite.of_equiv _ eGamma.symm

theorem card_rest : Nat.card (Rest n) = secpNn ^ (2 * n + 4) := by
  have h : Nat.card (Fin n → Fn) = secpNn ^ n := by rw [Nat.card_fun, Nat.card_zmod, Nat.card_fin]
  rw [Nat.card_prod, Nat.card_prod, Nat.card_prod, Nat.card_prod, Nat.card_prod, h, Nat.card_zmod]
  ring

theorem card_rnd : Nat.card (Rnd n) = secpNn ^ (2 * n + 5) := by
  rw [Nat.card_congr eGamma, Nat.card_prod, card_rest, Nat.card_zmod]; ring

/-- Counting along one coordinate. -/
theorem ncard_fiber (e : Rnd n ≃ Fn × Rest n) (s : Set (Rnd n)) (c : Nat)
    (B : Rest n → Finset Fn) (hB : ∀ r, (B r).card ≤ c) (h : ∀ w ∈ s, (e w).1 ∈ B (e w).2) :
    s.ncard ≤ c * secpNn ^ (2 * n + 4) := by
  classical
  have : Fintype (Rest n) := Fintype.ofFinite _
  let T : Finset (Fn × Rest n) := (univ : Finset (Rest n)).biUnion fun r => (B r).image fun t => (t, r)
  have h1 : e '' s ⊆ (T : Set (Fn × Rest n)) := by
    rintro _ ⟨w, hw, rfl⟩
    simp only [T, coe_biUnion, Set.mem_iUnion, coe_image]
    exact ⟨(e w).2, by simp, (e w).1, h w hw, rfl⟩
  rw [← Set.ncard_image_of_injective s e.injective]
  refine (Set.ncard_le_ncard h1 (Finset.finite_toSet _)).trans ?_
  rw [Set.ncard_coe_finset]
  refine card_biUnion_le.trans ?_
  refine (sum_le_sum fun r _ => (card_image_le.trans (hB r))).trans ?_
  rw [sum_const, smul_eq_mul, card_univ, ← Nat.card_eq_fintype_card, card_rest, mul_comm]

/-- A coordinate vector as a function on all natural numbers. -/
def ext (f : Fin n → Fn) (i : Nat) : Fn := if h : i < n then f ⟨i, h⟩ else 0

theorem ext_add (f g : Fin n → Fn) : ext (fun i => f i + g i) = fun i => ext f i + ext g i := by
  funext i; unfold ext; split <;> simp

theorem castL_ofFn (f : Fin n → Fn) : castL (List.ofFn fun i => ((f i).val : Int)) = vec n (ext f) := by
  rw [castL, vec, List.map_ofFn]
  apply List.ext_getElem (by simp)
  intro i h1 h2
  simp at h1
  simp [ext, h1]

end Rnd

/-- `Prove` from `updateGenerators` on, with everything that depends on the randomness as arguments. -/
def proveCore (E : Ext) (params : BPParams) (V A S T1 T2 : P256) (taux mu y : Int)
    (bl br : List Int) (tprime : Int) : Res (Option BPProof) := do
  let hprime ← updateGenerators E params.Hh y params.N
  let ipp ← setupInnerProduct E params.H params.Gg hprime tprime params.N
  match ipp with
  | none => .ok none
  | some ipp => do
    let commit ← commitInnerProduct E params.Gg hprime bl br
    let proofip ← proveInnerProduct E bl br commit ipp
    let proofip ← Res.ofOption proofip
    .ok (some { V := V, A := A, S := S, T1 := T1, T2 := T2, Taux := taux, Mu := mu,
                Tprime := tprime, IP := proofip, Commit := commit, Params := params,
                ParamsIP := ipp })

theorem proveTail_core (E : Ext) (rnd : BPRand) (params : BPParams) (V A S T1 T2 : P256) (x y z : Int)
    (bl br : List Int) (tprime : Int) :
    proveTail E rnd params V A S T1 T2 x y z bl br tprime =
      proveCore E params V A S T1 T2 ((rnd.tau2 * (x * x) + rnd.tau1 * x + z * z * rnd.gamma) % ORDER)
        ((rnd.rho * x + rnd.alpha) % ORDER) y bl br tprime := rfl

/-- A proof object carries the points it was made with. -/
theorem proveCore_T {E : Ext} {params : BPParams} {V A S T1 T2 : P256} {taux mu y : Int}
    {bl br : List Int} {tprime : Int} {proof : BPProof}
    (h : proveCore E params V A S T1 T2 taux mu y bl br tprime = .ok (some proof)) :
    proof.T1 = T1 ∧ proof.T2 = T2 := by
  simp only [proveCore, Res.bind_eq_ok] at h
  obtain ⟨h', u1, oipp, s1, h⟩ := h
  cases oipp with
  | none => simp at h
  | some ipp =>
    simp only [Res.bind_eq_ok, Res.ok.injEq, Option.some.injEq] at h
    obtain ⟨_, _, _, _, _, _, rfl⟩ := h
    exact ⟨rfl, rfl⟩

/-- The data a proof is made from: generators as multiples of `H`. -/
structure HideCtx (n : Nat) where
  E : Ext
  params : BPParams
  G : Nat → Secp
  Hh : Nat → Secp
  H : Secp
  /-- discrete logarithms to the base `H` of the base point and the generators -/
  d : Fn
  g : Nat → Fn
  h : Nat → Fn

namespace HideCtx
variable {n : Nat} (c : HideCtx n)

/-- The discrete logarithms are right. -/
structure Ok : Prop where
  E : c.E.Ok
  gen_N : c.params.N = n
  gen_G : Reps c.params.Gg (vec n c.G)
  gen_H : Reps c.params.Hh (vec n c.Hh)
  H : Rep c.params.H c.H
  ne : c.H ≠ 0
  d : c.d • c.H = secpG
  g : ∀ i, c.g i • c.H = c.G i
  h : ∀ i, c.h i • c.H = c.Hh i

/-! Exponents to the base `H` of the points in the proof. -/

def eV (v : Int) (w : Rnd n) : Fn := (v : Fn) * c.d + w.gamma

def eA (v : Int) (w : Rnd n) : Fn := w.alpha +
  ∑ i ∈ range n, ((Spec.bit v i : Fn) * c.g i + ((Spec.bit v i : Fn) - 1) * c.h i)

def eS (w : Rnd n) : Fn := w.rho + ∑ i ∈ range n, (Rnd.ext w.sL i * c.g i + Rnd.ext w.sR i * c.h i)

noncomputable def yz (v : Int) (w : Rnd n) : Int × Int :=
  hashBP c.E (canonP (c.eA v w • c.H)) (canonP (c.eS w • c.H))

noncomputable def t1 (v : Int) (w : Rnd n) : Fn :=
  Spec.t1 n v ((c.yz v w).1 : Fn) ((c.yz v w).2 : Fn) (Rnd.ext w.sL) (Rnd.ext w.sR)

noncomputable def t2 (v : Int) (w : Rnd n) : Fn :=
  Spec.t2 n ((c.yz v w).1 : Fn) (Rnd.ext w.sL) (Rnd.ext w.sR)

noncomputable def eT1 (v : Int) (w : Rnd n) : Fn := c.t1 v w * c.d + w.tau1
noncomputable def eT2 (v : Int) (w : Rnd n) : Fn := c.t2 v w * c.d + w.tau2

noncomputable def x (v : Int) (w : Rnd n) : Int :=
  (hashBP c.E (canonP (c.eT1 v w • c.H)) (canonP (c.eT2 v w • c.H))).1

noncomputable def l (v : Int) (w : Rnd n) (i : Nat) : Fn :=
  Spec.l0 v ((c.yz v w).2 : Fn) i + Rnd.ext w.sL i * c.x v w

noncomputable def r (v : Int) (w : Rnd n) (i : Nat) : Fn :=
  Spec.r0 v ((c.yz v w).1 : Fn) ((c.yz v w).2 : Fn) i + ((c.yz v w).1 : Fn) ^ i * Rnd.ext w.sR i * c.x v w

noncomputable def taux (v : Int) (w : Rnd n) : Fn :=
  w.tau2 * (c.x v w : Fn) ^ 2 + w.tau1 * c.x v w + ((c.yz v w).2 : Fn) ^ 2 * w.gamma

noncomputable def mu (v : Int) (w : Rnd n) : Fn := w.rho * c.x v w + w.alpha

/-- Canonical integers of a vector. -/
def canonL (n : Nat) (f : Nat → Fn) : List Int := (List.range n).map fun i => ((f i).val : Int)

/-- The ideal prover. -/
noncomputable def ideal (v : Int) (w : Rnd n) : Res (Option BPProof) :=
  proveCore c.E c.params (canonP (c.eV v w • c.H)) (canonP (c.eA v w • c.H)) (canonP (c.eS w • c.H))
    (canonP (c.eT1 v w • c.H)) (canonP (c.eT2 v w • c.H)) (c.taux v w).val (c.mu v w).val (c.yz v w).1
    (canonL n (c.l v w)) (canonL n (c.r v w)) (∑ i ∈ range n, c.l v w i * c.r v w i).val

/-- Randomness for which no point of the proof is infinite and no addition exceptional. -/
structure Regular (v : Int) (w : Rnd n) : Prop where
  V : w.gamma ≠ 0 ∧ w.gamma ≠ v * c.d ∧ c.eV v w ≠ 0
  A : c.eA v w ≠ 0
  S : c.eS w ≠ 0
  T1 : w.tau1 ≠ 0 ∧ w.tau1 ≠ c.t1 v w * c.d ∧ c.eT1 v w ≠ 0
  T2 : w.tau2 ≠ 0 ∧ w.tau2 ≠ c.t2 v w * c.d ∧ c.eT2 v w ≠ 0

/-- The randomness which gives the same proof for the secret `v'`. -/
noncomputable def swap (v v' : Int) (w : Rnd n) : Rnd n :=
  let k : Fn := (c.x v w : Fn)⁻¹
  let b : Nat → Fn := fun i => (Spec.bit v i : Fn) - Spec.bit v' i
  let a : Fn := ∑ i ∈ range n, b i * (c.g i + c.h i)
  let sL : Fin n → Fn := fun i => w.sL i + b i * k
  let sR : Fin n → Fn := fun i => w.sR i + b i * k
  { gamma := w.gamma + ((v : Fn) - v') * c.d
    alpha := w.alpha + a
    rho := w.rho - a * k
    sL := sL
    sR := sR
    tau1 := w.tau1 + (c.t1 v w - Spec.t1 n v' ((c.yz v w).1 : Fn) ((c.yz v w).2 : Fn) (Rnd.ext sL) (Rnd.ext sR)) * c.d
    tau2 := w.tau2 + (c.t2 v w - Spec.t2 n ((c.yz v w).1 : Fn) (Rnd.ext sL) (Rnd.ext sR)) * c.d }

end HideCtx

theorem RepFin.canon {a : P256} {Q : Secp} (h : RepFin a Q) : a = canonP Q :=
  h.eq ((rep_canonP Q).fin h.ne_zero)

theorem Rep.canon {a : P256} {Q : Secp} (h : Rep a Q) (hQ : Q ≠ 0) : a = canonP Q := (h.fin hQ).canon

theorem int_val_of_range {a : Int} (h : 0 ≤ a ∧ a < ORDER) : a = (((a : Fn).val : Nat) : Int) := by
  have h1 : ((a : Fn).val : Int) = a % (secpNn : Nat) := ZMod.val_intCast a
  rw [h1, ← ORDER_eq, Int.emod_eq_of_lt h.1 h.2]

theorem emod_val (a : Int) : a % ORDER = (((a : Fn).val : Nat) : Int) := by
  rw [ORDER_eq]; exact (ZMod.val_intCast a).symm

theorem canonL_of_castL {n : Nat} {l : List Int} {f : Nat → Fn} (h : castL l = vec n f)
    (hr : ∀ c ∈ l, 0 ≤ c ∧ c < ORDER) : l = HideCtx.canonL n f := by
  have h1 : l = (castL l).map fun a => ((a.val : Nat) : Int) := by
    rw [castL, List.map_map]
    conv_lhs => rw [← List.map_id l]
    exact List.map_congr_left fun a ha => int_val_of_range (hr a ha)
  rw [h1, h, vec, List.map_map, HideCtx.canonL]
  rfl

theorem scalarProduct_range {a b : List Int} {t : Int} (h : scalarProduct a b = some t) : 0 ≤ t ∧ t < ORDER := by
  have loop : ∀ (a b : List Int) (r : Int), 0 ≤ r ∧ r < ORDER → 0 ≤ scalarProductLoop a b r ∧ scalarProductLoop a b r < ORDER := by
    intro a
    induction a with
    | nil => intro b r h; simpa [scalarProductLoop] using h
    | cons x a ih =>
      intro b r h
      cases b with
      | nil => simpa [scalarProductLoop] using h
      | cons y b =>
        rw [scalarProductLoop]
        exact ih _ _ ⟨Int.emod_nonneg _ (by decide), Int.emod_lt_of_pos _ (by decide)⟩
  rw [scalarProduct] at h
  split at h
  · cases h
  · injection h with h; rw [← h]; exact loop _ _ _ (by decide)

namespace HideCtx
variable {n : Nat} {c : HideCtx n}

theorem smul_H_ne (hc : c.Ok) {k : Fn} (hk : k ≠ 0) : k • c.H ≠ 0 :=
  smul_ne_zero hk hc.ne

theorem add_eq (hc : c.Ok) {a t : Fn} (h : t ≠ 0 ∧ t ≠ a * c.d ∧ a * c.d + t ≠ 0) :
    addOf (a • secpG) (t • c.H) = (a * c.d + t) • c.H := by
  rw [← hc.d, smul_smul, addOf_eq, add_smul]
  refine Or.inr ⟨smul_H_ne hc h.1, fun he => ?_⟩
  have : (a * c.d - t) • c.H = 0 := by rw [sub_smul, he, sub_self]
  rcases smul_eq_zero.1 this with h' | h'
  · exact h.2.1 (sub_eq_zero.1 h').symm
  · exact hc.ne h'

/-- On regular randomness the code is the ideal prover. -/
theorem prove_eq_ideal (hc : c.Ok) {v : Int} {w : Rnd n} (hw : c.Regular v w) :
    prove c.E w.toBP v c.params = c.ideal v w := by
  obtain ⟨V, A, S, T1, T2, x, y, z, bl, br, tp, t1, t2, e, hx, hyz, hV, hT1, hT2, ht1, ht2, hA, hS, hbl, hbr,
    htp, hsp, rl, rr⟩ := prove_head hc.E (rnd := w.toBP) (secret := v) hc.gen_N hc.gen_G hc.gen_H hc.H
      (Rnd.castL_ofFn w.sL) (Rnd.castL_ofFn w.sR)
  have cast : ∀ a : Fn, (((a.val : Nat) : Int) : Fn) = a := fun a => by
    rw [Int.cast_natCast, ZMod.natCast_zmod_val]
  have cA : A = canonP (c.eA v w • c.H) := by
    have : (((w.toBP).alpha : Fn) • c.H + ∑ i ∈ range n, ((Spec.bit v i : Fn) • c.G i + ((Spec.bit v i : Fn) - 1) • c.Hh i))
        = c.eA v w • c.H := by
      rw [eA, add_smul, sum_smul, show ((w.toBP).alpha : Fn) = w.alpha from cast _]
      congr 1
      refine sum_congr rfl fun i _ => ?_
      rw [← hc.g, ← hc.h, smul_smul, smul_smul, add_smul]
    rw [this] at hA
    exact hA.canon (smul_H_ne hc hw.A)
  have cS : S = canonP (c.eS w • c.H) := by
    have : (((w.toBP).rho : Fn) • c.H + ∑ i ∈ range n, (Rnd.ext w.sL i • c.G i + Rnd.ext w.sR i • c.Hh i))
        = c.eS w • c.H := by
      rw [eS, add_smul, sum_smul, show ((w.toBP).rho : Fn) = w.rho from cast _]
      congr 1
      refine sum_congr rfl fun i _ => ?_
      rw [← hc.g, ← hc.h, smul_smul, smul_smul, add_smul]
    rw [this] at hS
    exact hS.canon (smul_H_ne hc hw.S)
  have hyz' : (y, z) = c.yz v w := by rw [hyz, cA, cS]; rfl
  have hy : y = (c.yz v w).1 := by rw [← hyz']
  have hz : z = (c.yz v w).2 := by rw [← hyz']
  have com : ∀ (a : Int) (t : Fn), (t ≠ 0 ∧ t ≠ a * c.d ∧ a * c.d + t ≠ 0) →
      commitG1 c.E a (t.val : Int) c.params.H = canonP (((a : Fn) * c.d + t) • c.H) := by
    intro a t ht
    have := commitG1_addOf hc.E a (t.val : Int) hc.H
    rw [cast, add_eq hc ht] at this
    exact this.canon (smul_H_ne hc ht.2.2)
  have cV : V = canonP (c.eV v w • c.H) := by rw [hV]; exact com _ _ hw.V
  have e1 : (t1 : Fn) = c.t1 v w := by rw [ht1, hy, hz]; rfl
  have e2 : (t2 : Fn) = c.t2 v w := by rw [ht2, hy]; rfl
  have cT1 : T1 = canonP (c.eT1 v w • c.H) := by
    rw [hT1]
    have := com t1 w.tau1 (by rw [e1]; exact hw.T1)
    rw [e1] at this
    exact this
  have cT2 : T2 = canonP (c.eT2 v w • c.H) := by
    rw [hT2]
    have := com t2 w.tau2 (by rw [e2]; exact hw.T2)
    rw [e2] at this
    exact this
  have hx' : x = c.x v w := by rw [hx, cT1, cT2]; rfl
  rw [e, proveTail_core, ideal, cV, cA, cS, cT1, cT2, ← hy]
  have f1 : (w.toBP.tau2 * (x * x) + w.toBP.tau1 * x + z * z * w.toBP.gamma) % ORDER = ((c.taux v w).val : Int) := by
    rw [emod_val]
    congr 2
    push_cast
    rw [show ((w.toBP).tau2 : Fn) = w.tau2 from cast _, show ((w.toBP).tau1 : Fn) = w.tau1 from cast _,
      show ((w.toBP).gamma : Fn) = w.gamma from cast _, hx', hz, taux]
    ring
  have f2 : (w.toBP.rho * x + w.toBP.alpha) % ORDER = ((c.mu v w).val : Int) := by
    rw [emod_val]
    congr 2
    push_cast
    rw [show ((w.toBP).rho : Fn) = w.rho from cast _, show ((w.toBP).alpha : Fn) = w.alpha from cast _, hx', mu]
  have f3 : bl = canonL n (c.l v w) := by
    refine canonL_of_castL (hbl.trans (vec_congr fun i _ => ?_)) rl
    rw [hx', hz]; rfl
  have f4 : br = canonL n (c.r v w) := by
    refine canonL_of_castL (hbr.trans (vec_congr fun i _ => ?_)) rr
    rw [hx', hz, hy]; rfl
  have f5 : tp = ((∑ i ∈ range n, c.l v w i * c.r v w i).val : Int) := by
    rw [int_val_of_range (scalarProduct_range hsp)]
    congr 2
    rw [htp, hx', hz, hy]; rfl
  rw [f1, f2, f3, f4, f5]

section Swap
variable (v v' : Int) (w : Rnd n)

theorem swap_eV : c.eV v' (c.swap v v' w) = c.eV v w := by
  simp only [eV, swap]; ring

theorem swap_eA : c.eA v' (c.swap v v' w) = c.eA v w := by
  simp only [eA, swap]
  rw [add_assoc, ← sum_add_distrib]
  congr 1
  exact sum_congr rfl fun i _ => by ring

theorem ext_shift (f : Fin n → Fn) (b : Nat → Fn) {i : Nat} (hi : i < n) :
    Rnd.ext (fun i : Fin n => f i + b i) i = Rnd.ext f i + b i := by
  simp [Rnd.ext, hi]

theorem swap_sL {i : Nat} (hi : i < n) : Rnd.ext (c.swap v v' w).sL i =
    Rnd.ext w.sL i + ((Spec.bit v i : Fn) - Spec.bit v' i) * (c.x v w : Fn)⁻¹ :=
  ext_shift w.sL (fun i => ((Spec.bit v i : Fn) - Spec.bit v' i) * (c.x v w : Fn)⁻¹) hi

theorem swap_sR {i : Nat} (hi : i < n) : Rnd.ext (c.swap v v' w).sR i =
    Rnd.ext w.sR i + ((Spec.bit v i : Fn) - Spec.bit v' i) * (c.x v w : Fn)⁻¹ :=
  ext_shift w.sR (fun i => ((Spec.bit v i : Fn) - Spec.bit v' i) * (c.x v w : Fn)⁻¹) hi

theorem swap_eS : c.eS (c.swap v v' w) = c.eS w := by
  rw [eS, sum_congr rfl fun i hi => by rw [swap_sL v v' w (mem_range.1 hi), swap_sR v v' w (mem_range.1 hi)]]
  simp only [eS, swap]
  rw [sub_add_eq_add_sub, add_sub_assoc, sum_mul, ← sum_sub_distrib]
  congr 1
  exact sum_congr rfl fun i _ => by ring

theorem swap_yz : c.yz v' (c.swap v v' w) = c.yz v w := by rw [yz, yz, swap_eA, swap_eS]

theorem swap_eT1 : c.eT1 v' (c.swap v v' w) = c.eT1 v w := by
  rw [eT1, t1, swap_yz, eT1]
  simp only [swap]
  ring

theorem swap_eT2 : c.eT2 v' (c.swap v v' w) = c.eT2 v w := by
  rw [eT2, t2, swap_yz, eT2]
  simp only [swap]
  ring

theorem swap_x : c.x v' (c.swap v v' w) = c.x v w := by rw [x, x, swap_eT1, swap_eT2]

variable {v v' w}

theorem swap_l (hx : (c.x v w : Fn) ≠ 0) {i : Nat} (hi : i < n) : c.l v' (c.swap v v' w) i = c.l v w i := by
  rw [l, l, swap_yz, swap_x, swap_sL v v' w hi, Spec.l0, Spec.l0]
  field_simp
  ring

theorem swap_r (hx : (c.x v w : Fn) ≠ 0) {i : Nat} (hi : i < n) : c.r v' (c.swap v v' w) i = c.r v w i := by
  rw [r, r, swap_yz, swap_x, swap_sR v v' w hi, Spec.r0, Spec.r0]
  field_simp
  ring

theorem swap_mu (hx : (c.x v w : Fn) ≠ 0) : c.mu v' (c.swap v v' w) = c.mu v w := by
  rw [mu, mu, swap_x]
  simp only [swap]
  field_simp
  ring

theorem sum_lr (v : Int) (w : Rnd n) (hv : 0 ≤ v ∧ v < 2 ^ n) : ∑ i ∈ range n, c.l v w i * c.r v w i =
    ((c.yz v w).2 : Fn) ^ 2 * v + Spec.delta n ((c.yz v w).1 : Fn) ((c.yz v w).2 : Fn) +
      c.t1 v w * c.x v w + c.t2 v w * (c.x v w : Fn) ^ 2 := by
  have := t_expand n v (c.x v w : Fn) ((c.yz v w).1 : Fn) ((c.yz v w).2 : Fn) (Rnd.ext w.sL) (Rnd.ext w.sR)
  rw [t0_eq, Int.emod_eq_of_lt hv.1 hv.2] at this
  exact this

theorem swap_taux (hv : 0 ≤ v ∧ v < 2 ^ n) (hv' : 0 ≤ v' ∧ v' < 2 ^ n) (hx : (c.x v w : Fn) ≠ 0) :
    c.taux v' (c.swap v v' w) = c.taux v w := by
  have h1 := sum_lr (c := c) v w hv
  have h2 := sum_lr (c := c) v' (c.swap v v' w) hv'
  rw [sum_congr rfl fun i hi => by rw [swap_l hx (mem_range.1 hi), swap_r hx (mem_range.1 hi)], h1, swap_yz, swap_x] at h2
  have e1 : (c.swap v v' w).tau1 = w.tau1 + (c.t1 v w - c.t1 v' (c.swap v v' w)) * c.d := by
    rw [t1, t1, swap_yz]; rfl
  have e2 : (c.swap v v' w).tau2 = w.tau2 + (c.t2 v w - c.t2 v' (c.swap v v' w)) * c.d := by
    rw [t2, t2, swap_yz]; rfl
  have e3 : (c.swap v v' w).gamma = w.gamma + ((v : Fn) - v') * c.d := rfl
  rw [taux, taux, swap_yz, swap_x, e1, e2, e3]
  linear_combination c.d * h2

/-- The same proof for another secret. -/
theorem swap_ideal (hv : 0 ≤ v ∧ v < 2 ^ n) (hv' : 0 ≤ v' ∧ v' < 2 ^ n) (hx : (c.x v w : Fn) ≠ 0) :
    c.ideal v' (c.swap v v' w) = c.ideal v w := by
  have hl : canonL n (c.l v' (c.swap v v' w)) = canonL n (c.l v w) :=
    List.map_congr_left fun i hi => by rw [swap_l hx (List.mem_range.1 hi)]
  have hr : canonL n (c.r v' (c.swap v v' w)) = canonL n (c.r v w) :=
    List.map_congr_left fun i hi => by rw [swap_r hx (List.mem_range.1 hi)]
  have hs : ∑ i ∈ range n, c.l v' (c.swap v v' w) i * c.r v' (c.swap v v' w) i = ∑ i ∈ range n, c.l v w i * c.r v w i :=
    sum_congr rfl fun i hi => by rw [swap_l hx (mem_range.1 hi), swap_r hx (mem_range.1 hi)]
  rw [ideal, ideal, swap_eV, swap_eA, swap_eS, swap_eT1, swap_eT2, swap_taux hv hv' hx, swap_mu hx, swap_yz, hl, hr, hs]

/-- Changing back. -/
theorem swap_swap : c.swap v' v (c.swap v v' w) = w := by
  have hL : (c.swap v' v (c.swap v v' w)).sL = w.sL := by
    funext i
    show w.sL i + ((Spec.bit v i : Fn) - Spec.bit v' i) * (c.x v w : Fn)⁻¹ +
      ((Spec.bit v' i : Fn) - Spec.bit v i) * (c.x v' (c.swap v v' w) : Fn)⁻¹ = _
    rw [swap_x]; ring
  have hR : (c.swap v' v (c.swap v v' w)).sR = w.sR := by
    funext i
    show w.sR i + ((Spec.bit v i : Fn) - Spec.bit v' i) * (c.x v w : Fn)⁻¹ +
      ((Spec.bit v' i : Fn) - Spec.bit v i) * (c.x v' (c.swap v v' w) : Fn)⁻¹ = _
    rw [swap_x]; ring
  have hyz : c.yz v (c.swap v' v (c.swap v v' w)) = c.yz v w := by rw [swap_yz, swap_yz]
  have hg : (c.swap v' v (c.swap v v' w)).gamma = w.gamma := by simp only [swap]; ring
  have ha : (c.swap v' v (c.swap v v' w)).alpha = w.alpha := by
    have h := (swap_eA (c := c) v' v (c.swap v v' w)).trans (swap_eA v v' w)
    simpa only [eA, add_left_inj] using h
  have hr : (c.swap v' v (c.swap v v' w)).rho = w.rho := by
    have h := (swap_eS (c := c) v' v (c.swap v v' w)).trans (swap_eS v v' w)
    simpa only [eS, hL, hR, add_left_inj] using h
  have h1 : (c.swap v' v (c.swap v v' w)).tau1 = w.tau1 := by
    have h := (swap_eT1 (c := c) v' v (c.swap v v' w)).trans (swap_eT1 v v' w)
    simpa only [eT1, t1, hyz, hL, hR, add_right_inj] using h
  have h2 : (c.swap v' v (c.swap v v' w)).tau2 = w.tau2 := by
    have h := (swap_eT2 (c := c) v' v (c.swap v v' w)).trans (swap_eT2 v v' w)
    simpa only [eT2, t2, hyz, hL, hR, add_right_inj] using h
  generalize c.swap v' v (c.swap v v' w) = u at *
  obtain ⟨g, a, r, p, q, sL, sR⟩ := u
  obtain ⟨g', a', r', p', q', sL', sR'⟩ := w
  simp only at hL hR hg ha hr h1 h2
  subst hL hR hg ha hr h1 h2
  rfl

end Swap

/-- Exceptional randomness is rare. -/
theorem irregular_card (c : HideCtx n) (v : Int) : {w : Rnd n | ¬ c.Regular v w}.ncard ≤ 11 * secpNn ^ (2 * n + 4) := by
  classical
  let q := secpNn ^ (2 * n + 4)
  have hV : {w : Rnd n | ¬ (w.gamma ≠ 0 ∧ w.gamma ≠ v * c.d ∧ c.eV v w ≠ 0)}.ncard ≤ 3 * q := by
    refine Rnd.ncard_fiber Rnd.eGamma _ 3 (fun _ => {0, v * c.d, -(v * c.d)}) (fun _ => card_le_three) fun w hw => ?_
    by_contra h
    simp only [Rnd.eGamma, Equiv.coe_fn_mk, mem_insert, mem_singleton, not_or] at h
    exact hw ⟨h.1, h.2.1, fun h0 => h.2.2 (eq_neg_of_add_eq_zero_right h0)⟩
  have hA : {w : Rnd n | ¬ (c.eA v w ≠ 0)}.ncard ≤ 1 * q := by
    refine Rnd.ncard_fiber Rnd.eAlpha _ 1 (fun _ => {-(∑ i ∈ range n, ((Spec.bit v i : Fn) * c.g i + ((Spec.bit v i : Fn) - 1) * c.h i))})
      (fun _ => (card_singleton _).le) fun w hw => ?_
    have hw : c.eA v w = 0 := not_not.1 hw
    simp only [Rnd.eAlpha, Equiv.coe_fn_mk, mem_singleton]
    exact eq_neg_of_add_eq_zero_left hw
  have hS : {w : Rnd n | ¬ (c.eS w ≠ 0)}.ncard ≤ 1 * q := by
    refine Rnd.ncard_fiber Rnd.eRho _ 1 (fun p => {-(∑ i ∈ range n, (Rnd.ext p.2.2.2.2.1 i * c.g i + Rnd.ext p.2.2.2.2.2 i * c.h i))})
      (fun _ => (card_singleton _).le) fun w hw => ?_
    have hw : c.eS w = 0 := not_not.1 hw
    simp only [Rnd.eRho, Equiv.coe_fn_mk, mem_singleton]
    exact eq_neg_of_add_eq_zero_left hw
  have hT1 : {w : Rnd n | ¬ (w.tau1 ≠ 0 ∧ w.tau1 ≠ c.t1 v w * c.d ∧ c.eT1 v w ≠ 0)}.ncard ≤ 3 * q := by
    refine Rnd.ncard_fiber Rnd.eTau1 _ 3 (fun p => {0, c.t1 v (Rnd.eTau1.symm (0, p)) * c.d,
      -(c.t1 v (Rnd.eTau1.symm (0, p)) * c.d)}) (fun _ => card_le_three) fun w hw => ?_
    have e : c.t1 v (Rnd.eTau1.symm (0, (Rnd.eTau1 w).2)) = c.t1 v w := rfl
    rw [e]
    by_contra h
    simp only [Rnd.eTau1, Equiv.coe_fn_mk, mem_insert, mem_singleton, not_or] at h
    exact hw ⟨h.1, h.2.1, fun h0 => h.2.2 (eq_neg_of_add_eq_zero_right h0)⟩
  have hT2 : {w : Rnd n | ¬ (w.tau2 ≠ 0 ∧ w.tau2 ≠ c.t2 v w * c.d ∧ c.eT2 v w ≠ 0)}.ncard ≤ 3 * q := by
    refine Rnd.ncard_fiber Rnd.eTau2 _ 3 (fun p => {0, c.t2 v (Rnd.eTau2.symm (0, p)) * c.d,
      -(c.t2 v (Rnd.eTau2.symm (0, p)) * c.d)}) (fun _ => card_le_three) fun w hw => ?_
    have e : c.t2 v (Rnd.eTau2.symm (0, (Rnd.eTau2 w).2)) = c.t2 v w := rfl
    rw [e]
    by_contra h
    simp only [Rnd.eTau2, Equiv.coe_fn_mk, mem_insert, mem_singleton, not_or] at h
    exact hw ⟨h.1, h.2.1, fun h0 => h.2.2 (eq_neg_of_add_eq_zero_right h0)⟩
  have hsub : {w : Rnd n | ¬ c.Regular v w} ⊆
      {w | ¬ (w.gamma ≠ 0 ∧ w.gamma ≠ v * c.d ∧ c.eV v w ≠ 0)} ∪ ({w | ¬ (c.eA v w ≠ 0)} ∪
      ({w | ¬ (c.eS w ≠ 0)} ∪ ({w | ¬ (w.tau1 ≠ 0 ∧ w.tau1 ≠ c.t1 v w * c.d ∧ c.eT1 v w ≠ 0)} ∪
      {w | ¬ (w.tau2 ≠ 0 ∧ w.tau2 ≠ c.t2 v w * c.d ∧ c.eT2 v w ≠ 0)}))) := by
    intro w hw
    by_contra h
    simp only [Set.mem_union, Set.mem_ofPred_eq, not_or, not_not] at h
    exact hw ⟨h.1, h.2.1, h.2.2.1, h.2.2.2.1, h.2.2.2.2⟩
  refine (Set.ncard_le_ncard hsub (Set.toFinite _)).trans ?_
  refine (Set.ncard_union_le _ _).trans ?_
  refine (Nat.add_le_add_left (Set.ncard_union_le _ _) _).trans ?_
  refine (Nat.add_le_add_left (Nat.add_le_add_left (Set.ncard_union_le _ _) _) _).trans ?_
  refine (Nat.add_le_add_left (Nat.add_le_add_left (Nat.add_le_add_left (Set.ncard_union_le _ _) _) _) _).trans ?_
  show _ ≤ 11 * q
  omega

end HideCtx

end Verif
