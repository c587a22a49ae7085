import Verif.Spec.BnPool
import Verif.Model.BnHeapPair
import Verif.Lemmas.BnHeapApi

/-! # Counting the objects that are taken from a pool and not given back -/

namespace Verif

open BigM

theorem Counts.mono {α : Type} {m : BigM α} {P Q : Int → Prop} (h : Counts m P) (hPQ : ∀ n, P n → Q n) : Counts m Q :=
  fun s r s' hs e => ⟨(h s r s' hs e).1, hPQ _ (h s r s' hs e).2⟩

theorem bind_ok {α β : Type} {m : BigM α} {k : α → BigM β} {s s'' : BigHeap} {r : β} (h : (m >>= k) s = .ok (r, s'')) :
    ∃ a s', m s = .ok (a, s') ∧ k a s' = .ok (r, s'') := by
  have h : (m s >>= fun x => k x.1 x.2) = .ok (r, s'') := h
  cases hm : m s with
  | ok x => rw [hm] at h; exact ⟨x.1, x.2, rfl, h⟩
  | panic => rw [hm] at h; cases h

theorem Counts.bind {α β : Type} {m : BigM α} {k : α → BigM β} {P Q R : Int → Prop} (h : Counts m P) (hk : ∀ a, Counts (k a) Q)
    (hR : ∀ a b, P a → Q b → R (a + b)) : Counts (m >>= k) R := by
  intro s r s'' hs e
  obtain ⟨a, s', e1, e2⟩ := bind_ok e
  obtain ⟨h1, h2⟩ := h s a s' hs e1
  obtain ⟨h3, h4⟩ := hk a s' r s'' h1 e2
  refine ⟨h3, ?_⟩
  have : poolCount s s'' = poolCount s s' + poolCount s' s'' := by unfold poolCount; omega
  rw [this]
  exact hR _ _ h2 h4

theorem Keeps.bind {α β : Type} {m : BigM α} {k : α → BigM β} {a b : Int} (h : Keeps m a) (hk : ∀ r, Keeps (k r) b) :
    Keeps (m >>= k) (a + b) := Counts.bind h hk fun x y hx hy => by rw [hx, hy]

theorem Keeps.pure {α : Type} (a : α) : Keeps (Pure.pure a : BigM α) 0 := by
  intro s r s' hs e
  obtain ⟨rfl, rfl⟩ := Prod.mk.inj (Res.ok.inj e)
  exact ⟨hs, by simp [poolCount]⟩

theorem Keeps.panic {α : Type} (n : Int) : Keeps (BigM.panic : BigM α) n := fun s r s' hs e => by cases e

/-- A method that takes nothing, or gives back what it takes, or gives the number of objects it keeps. -/
class KeepsC {α : Type} (m : BigM α) (n : outParam Int) : Prop where
  out : Keeps m n

instance : KeepsC BigM.get 1 where
  out := by
    intro s r s' hs e
    obtain ⟨l, hl⟩ := Option.isSome_iff_exists.1 hs
    unfold BigM.get at e
    rw [hl] at e
    cases hb : l.getLast? with
    | none =>
      simp only [hb] at e
      obtain ⟨-, rfl⟩ := Prod.mk.inj (Res.ok.inj e)
      exact ⟨hs, by simp [poolCount]⟩
    | some c =>
      simp only [hb] at e
      obtain ⟨-, rfl⟩ := Prod.mk.inj (Res.ok.inj e)
      have : l ≠ [] := by rintro rfl; simp at hb
      have : 0 < l.length := List.length_pos_iff.2 this
      refine ⟨rfl, ?_⟩
      simp only [poolCount, hl, Option.getD_some, List.length_dropLast]
      omega

instance (c : Cell) : KeepsC (BigM.put c) (-1) where
  out := by
    intro s r s' hs e
    obtain ⟨l, hl⟩ := Option.isSome_iff_exists.1 hs
    unfold BigM.put at e
    rw [hl] at e
    obtain ⟨-, rfl⟩ := Prod.mk.inj (Res.ok.inj e)
    exact ⟨rfl, by simp [poolCount, hl]⟩

instance (c : Cell) : KeepsC (BigM.read c) 0 where
  out := by
    intro s r s' hs e
    obtain ⟨-, rfl⟩ := Prod.mk.inj (Res.ok.inj e)
    exact ⟨hs, by simp [poolCount]⟩

instance (c : Cell) (v : Int) : KeepsC (BigM.write c v) 0 where
  out := by
    intro s r s' hs e
    obtain ⟨-, rfl⟩ := Prod.mk.inj (Res.ok.inj e)
    exact ⟨hs, by simp [poolCount]⟩

theorem Keeps.ite {α : Type} {c : Prop} [Decidable c] {a b : BigM α} {n : Int} (ha : Keeps a n) (hb : Keeps b n) :
    Keeps (if c then a else b) n := by
  split
  · exact ha
  · exact hb

theorem Keeps.cast {α : Type} {m : BigM α} {a b : Int} (h : Keeps m a) (e : a = b) : Keeps m b := e ▸ h

/-- A method without control flow. -/
macro "keeps" : tactic => `(tactic| (
  apply Keeps.cast
  · repeat' first
      | with_reducible exact KeepsC.out
      | with_reducible exact Keeps.pure _
      | with_reducible apply Keeps.bind KeepsC.out
      | intro _
  · norm_num))

instance (d a b : Cell) : KeepsC (BigM.add d a b) 0 where
  out := by unfold BigM.add; keeps

instance (d a b : Cell) : KeepsC (BigM.sub d a b) 0 where
  out := by unfold BigM.sub; keeps

instance (d a b : Cell) : KeepsC (BigM.mul d a b) 0 where
  out := by unfold BigM.mul; keeps

instance (d a : Cell) : KeepsC (BigM.mod d a) 0 where
  out := by unfold BigM.mod; keeps

instance (d a : Cell) : KeepsC (BigM.neg d a) 0 where
  out := by unfold BigM.neg; keeps

instance (d a : Cell) : KeepsC (BigM.set d a) 0 where
  out := by unfold BigM.set; keeps

instance (d a : Cell) : KeepsC (BigM.lsh1 d a) 0 where
  out := by unfold BigM.lsh1; keeps

instance (d a : Cell) : KeepsC (BigM.lsh3 d a) 0 where
  out := by unfold BigM.lsh3; keeps

instance (d a : Cell) : KeepsC (BigM.modInv d a) 0 where
  out := by 
    unfold BigM.modInv
    refine Keeps.cast (Keeps.bind KeepsC.out fun v => ?_) (zero_add 0)
    split
    · exact Keeps.pure _
    · keeps

instance (d : Cell) : KeepsC (BigM.reduce d) 0 where
  out := by 
    unfold BigM.reduce
    refine Keeps.cast (Keeps.bind KeepsC.out fun v => ?_) (zero_add 0)
    split
    · keeps
    · exact Keeps.pure _

instance (d : Cell) (n : Int) : KeepsC (BigM.setInt d n) 0 where
  out := by unfold BigM.setInt; keeps

instance : KeepsC (Gf2.new) 2 where
  out := by unfold Gf2.new; keeps

instance (d : Gf2) : KeepsC (Gf2.put d) (-2) where
  out := by unfold Gf2.put; keeps

instance (d a : Gf2) : KeepsC (Gf2.set d a) 0 where
  out := by unfold Gf2.set; keeps

instance (d : Gf2) : KeepsC (Gf2.setZero d) 0 where
  out := by unfold Gf2.setZero; keeps

instance (d : Gf2) : KeepsC (Gf2.setOne d) 0 where
  out := by unfold Gf2.setOne; keeps

instance (d : Gf2) : KeepsC (Gf2.minimal d) 0 where
  out := by unfold Gf2.minimal; keeps

instance (d : Gf2) : KeepsC (Gf2.isZero d) 0 where
  out := by unfold Gf2.isZero; keeps

instance (d : Gf2) : KeepsC (Gf2.isOne d) 0 where
  out := by unfold Gf2.isOne; keeps

instance (d a : Gf2) : KeepsC (Gf2.conj d a) 0 where
  out := by unfold Gf2.conj; keeps

instance (d a : Gf2) : KeepsC (Gf2.neg d a) 0 where
  out := by unfold Gf2.neg; keeps

instance (d a b : Gf2) : KeepsC (Gf2.add d a b) 0 where
  out := by unfold Gf2.add; keeps

instance (d a b : Gf2) : KeepsC (Gf2.sub d a b) 0 where
  out := by unfold Gf2.sub; keeps

instance (d a : Gf2) : KeepsC (Gf2.double d a) 0 where
  out := by unfold Gf2.double; keeps

instance (d a b : Gf2) : KeepsC (Gf2.mul d a b) 0 where
  out := by unfold Gf2.mul; keeps

instance (d a : Gf2) (b : Cell) : KeepsC (Gf2.mulScalar d a b) 0 where
  out := by unfold Gf2.mulScalar; keeps

instance (d a : Gf2) : KeepsC (Gf2.mulXi d a) 0 where
  out := by unfold Gf2.mulXi; keeps

instance (d a : Gf2) : KeepsC (Gf2.square d a) 0 where
  out := by unfold Gf2.square; keeps

instance (d a : Gf2) : KeepsC (Gf2.invert d a) 0 where
  out := by unfold Gf2.invert; keeps

instance (sum t a : Gf2) (power : Int) (n : Nat) : KeepsC (Gf2.expLoop sum t a power n) 0 where
  out := by 
    induction n with
    | zero => exact Keeps.pure _
    | succ n ih =>
      unfold Gf2.expLoop
      refine Keeps.cast (Keeps.bind KeepsC.out fun _ => ?_) (zero_add 0)
      dsimp only
      split
      · exact Keeps.cast (Keeps.bind KeepsC.out fun _ => ih) (zero_add 0)
      · exact Keeps.cast (Keeps.bind KeepsC.out fun _ => ih) (zero_add 0)

instance (c a : Gf2) (power : Int) : KeepsC (Gf2.exp c a power) 0 where
  out := by unfold Gf2.exp; keeps

instance : KeepsC (Gf6.new) 6 where
  out := by unfold Gf6.new; keeps

instance (d : Gf6) : KeepsC (Gf6.put d) (-6) where
  out := by unfold Gf6.put; keeps

instance (d a : Gf6) : KeepsC (Gf6.set d a) 0 where
  out := by unfold Gf6.set; keeps

instance (d : Gf6) : KeepsC (Gf6.setZero d) 0 where
  out := by unfold Gf6.setZero; keeps

instance (d : Gf6) : KeepsC (Gf6.setOne d) 0 where
  out := by unfold Gf6.setOne; keeps

instance (d : Gf6) : KeepsC (Gf6.minimal d) 0 where
  out := by unfold Gf6.minimal; keeps

instance (d : Gf6) : KeepsC (Gf6.isZero d) 0 where
  out := by unfold Gf6.isZero; keeps

instance (d : Gf6) : KeepsC (Gf6.isOne d) 0 where
  out := by unfold Gf6.isOne; keeps

instance (d a : Gf6) : KeepsC (Gf6.neg d a) 0 where
  out := by unfold Gf6.neg; keeps

instance (d a b : Gf6) : KeepsC (Gf6.add d a b) 0 where
  out := by unfold Gf6.add; keeps

instance (d a b : Gf6) : KeepsC (Gf6.sub d a b) 0 where
  out := by unfold Gf6.sub; keeps

instance (d a : Gf6) : KeepsC (Gf6.double d a) 0 where
  out := by unfold Gf6.double; keeps

instance (d a b : Gf6) : KeepsC (Gf6.mul d a b) 0 where
  out := by unfold Gf6.mul; keeps

instance (d a : Gf6) : KeepsC (Gf6.mulTau d a) 0 where
  out := by unfold Gf6.mulTau; keeps

instance (d a : Gf6) : KeepsC (Gf6.square d a) 0 where
  out := by unfold Gf6.square; keeps

instance (d a : Gf6) : KeepsC (Gf6.invert d a) 0 where
  out := by unfold Gf6.invert; keeps

instance (d a : Gf6) (b : Gf2) : KeepsC (Gf6.mulScalar d a b) 0 where
  out := by unfold Gf6.mulScalar; keeps

instance (d a : Gf6) (b : Cell) : KeepsC (Gf6.mulGFP d a b) 0 where
  out := by unfold Gf6.mulGFP; keeps

instance (d a : Gf6) (g : BnGlobals) : KeepsC (Gf6.frobenius d a g) 0 where
  out := by unfold Gf6.frobenius; keeps

instance (d a : Gf6) (g : BnGlobals) : KeepsC (Gf6.frobeniusP2 d a g) 0 where
  out := by unfold Gf6.frobeniusP2; keeps

instance : KeepsC (Gf12.new) 12 where
  out := by unfold Gf12.new; keeps

instance (d : Gf12) : KeepsC (Gf12.put d) (-12) where
  out := by unfold Gf12.put; keeps

instance (d a : Gf12) : KeepsC (Gf12.set d a) 0 where
  out := by unfold Gf12.set; keeps

instance (d : Gf12) : KeepsC (Gf12.setZero d) 0 where
  out := by unfold Gf12.setZero; keeps

instance (d : Gf12) : KeepsC (Gf12.setOne d) 0 where
  out := by unfold Gf12.setOne; keeps

instance (d : Gf12) : KeepsC (Gf12.minimal d) 0 where
  out := by unfold Gf12.minimal; keeps

instance (d : Gf12) : KeepsC (Gf12.isZero d) 0 where
  out := by unfold Gf12.isZero; keeps

instance (d : Gf12) : KeepsC (Gf12.isOne d) 0 where
  out := by unfold Gf12.isOne; keeps

instance (d a : Gf12) : KeepsC (Gf12.conj d a) 0 where
  out := by unfold Gf12.conj; keeps

instance (d a : Gf12) : KeepsC (Gf12.neg d a) 0 where
  out := by unfold Gf12.neg; keeps

instance (d a b : Gf12) : KeepsC (Gf12.add d a b) 0 where
  out := by unfold Gf12.add; keeps

instance (d a b : Gf12) : KeepsC (Gf12.sub d a b) 0 where
  out := by unfold Gf12.sub; keeps

instance (d a b : Gf12) : KeepsC (Gf12.mul d a b) 0 where
  out := by unfold Gf12.mul; keeps

instance (d a : Gf12) : KeepsC (Gf12.square d a) 0 where
  out := by unfold Gf12.square; keeps

instance (d a : Gf12) (b : Gf6) : KeepsC (Gf12.mulScalar d a b) 0 where
  out := by unfold Gf12.mulScalar; keeps

instance (d a : Gf12) : KeepsC (Gf12.invert d a) 0 where
  out := by unfold Gf12.invert; keeps

instance (sum t a : Gf12) (power : Int) (n : Nat) : KeepsC (Gf12.expLoop sum t a power n) 0 where
  out := by 
    induction n with
    | zero => exact Keeps.pure _
    | succ n ih =>
      unfold Gf12.expLoop
      refine Keeps.cast (Keeps.bind KeepsC.out fun _ => ?_) (zero_add 0)
      dsimp only
      split
      · exact Keeps.cast (Keeps.bind KeepsC.out fun _ => ih) (zero_add 0)
      · exact Keeps.cast (Keeps.bind KeepsC.out fun _ => ih) (zero_add 0)

instance (c a : Gf12) (power : Int) : KeepsC (Gf12.exp c a power) 0 where
  out := by unfold Gf12.exp; keeps

instance (d a : Gf12) (g : BnGlobals) : KeepsC (Gf12.frobenius d a g) 0 where
  out := by unfold Gf12.frobenius; keeps

instance (d a : Gf12) (g : BnGlobals) : KeepsC (Gf12.frobeniusP2 d a g) 0 where
  out := by unfold Gf12.frobeniusP2; keeps

instance : KeepsC (CurveP.new) 4 where
  out := by unfold CurveP.new; keeps

instance (d : CurveP) : KeepsC (CurveP.put d) (-4) where
  out := by unfold CurveP.put; keeps

instance (d a : CurveP) : KeepsC (CurveP.set d a) 0 where
  out := by unfold CurveP.set; keeps

instance (d : CurveP) : KeepsC (CurveP.setInfinity d) 0 where
  out := by unfold CurveP.setInfinity; keeps

instance (d : CurveP) : KeepsC (CurveP.isInfinity d) 0 where
  out := by unfold CurveP.isInfinity; keeps

instance (d a : CurveP) : KeepsC (CurveP.double d a) 0 where
  out := by unfold CurveP.double; keeps

instance (d a : CurveP) : KeepsC (CurveP.neg d a) 0 where
  out := by unfold CurveP.neg; keeps

instance (c a b : CurveP) (z1z1 z2z2 u1 u2 t s1 s2 h i j : Cell) : KeepsC (CurveP.addTail c a b z1z1 z2z2 u1 u2 t s1 s2 h i j) (-10) where
  out := by unfold CurveP.addTail; keeps

instance : KeepsC (TwistP.new) 8 where
  out := by unfold TwistP.new; keeps

instance (d : TwistP) : KeepsC (TwistP.put d) (-8) where
  out := by unfold TwistP.put; keeps

instance (d a : TwistP) : KeepsC (TwistP.set d a) 0 where
  out := by unfold TwistP.set; keeps

instance (d : TwistP) : KeepsC (TwistP.setInfinity d) 0 where
  out := by unfold TwistP.setInfinity; keeps

instance (d : TwistP) : KeepsC (TwistP.isInfinity d) 0 where
  out := by unfold TwistP.isInfinity; keeps

instance (d a : TwistP) : KeepsC (TwistP.double d a) 0 where
  out := by unfold TwistP.double; keeps

instance (d a : TwistP) : KeepsC (TwistP.neg d a) 0 where
  out := by unfold TwistP.neg; keeps

instance (c a b : TwistP) (z1z1 z2z2 u1 u2 t s1 s2 h i j : Gf2) : KeepsC (TwistP.addTail c a b z1z1 z2z2 u1 u2 t s1 s2 h i j) (-20) where
  out := by unfold TwistP.addTail; keeps

instance (c : CurveP) : KeepsC (CurveP.makeAffineTail c) 0 where
  out := by 
    unfold CurveP.makeAffineTail
    refine Keeps.cast (Keeps.bind KeepsC.out fun _ => Keeps.bind KeepsC.out fun isNil => ?_) (show 1 + (0 + (-1)) = (0 : Int) by norm_num)
    split
    · exact Keeps.panic _
    · keeps

instance (c : CurveP) : KeepsC (CurveP.makeAffine c) 0 where
  out := by 
    unfold CurveP.makeAffine
    refine Keeps.cast (Keeps.bind KeepsC.out fun _ => ?_) (zero_add 0)
    split
    · exact Keeps.pure _
    · refine Keeps.cast (Keeps.bind KeepsC.out fun _ => ?_) (zero_add 0)
      split
      · keeps
      · exact KeepsC.out

instance (d : TwistP) : KeepsC (TwistP.makeAffineTail d) 0 where
  out := by unfold TwistP.makeAffineTail; keeps

instance (c : TwistP) : KeepsC (TwistP.makeAffine c) 0 where
  out := by 
    unfold TwistP.makeAffine
    refine Keeps.cast (Keeps.bind KeepsC.out fun _ => ?_) (zero_add 0)
    split
    · exact Keeps.pure _
    · exact KeepsC.out

instance (r p : TwistP) (q : CurveP) (r2 : Gf2) : KeepsC (lineAddH r p q r2) 14 where
  out := by unfold lineAddH; keeps

instance (r : TwistP) (q : CurveP) : KeepsC (lineDoubleH r q) 14 where
  out := by unfold lineDoubleH; keeps

instance (ret : Gf12) (a b c : Gf2) : KeepsC (mulLineH ret a b c) 0 where
  out := by unfold mulLineH; keeps

instance (ret : Gf12) (r : TwistP) (l : Gf2 × Gf2 × Gf2 × TwistP) : KeepsC (lineUse ret r l) (-14) where
  out := by unfold lineUse; keeps

instance (ret : Gf12) (aAffine minusA : TwistP) (bAffine : CurveP) (r2 : Gf2) (first : Bool) (digit : Int) (r : TwistP) : KeepsC (millerStepH ret aAffine minusA bAffine r2 first digit r) 0 where
  out := by 
    unfold millerStepH
    have h : ∀ l, Keeps (lineUse ret r l >>= fun r => if digit = 1 then lineAddH r aAffine bAffine r2 >>= fun l => lineUse ret r l
        else if digit = -1 then lineAddH r minusA bAffine r2 >>= fun l => lineUse ret r l else pure r) (-14) := by
      intro l
      refine Keeps.cast (Keeps.bind KeepsC.out fun r => ?_) (add_zero _)
      split
      · keeps
      · split
        · keeps
        · exact Keeps.pure _
    refine Keeps.cast (Keeps.bind KeepsC.out fun l => ?_) (show 14 + (-14) = (0 : Int) by norm_num)
    dsimp only
    split
    · exact h l
    · exact Keeps.cast (Keeps.bind KeepsC.out fun _ => h l) (zero_add _)

instance (ret : Gf12) (aAffine minusA : TwistP) (bAffine : CurveP) (r2 : Gf2) (first : Bool) (ds : List Int) (r : TwistP) : KeepsC (millerLoopH ret aAffine minusA bAffine r2 first ds r) 0 where
  out := by 
    induction ds generalizing first r with
    | nil => exact Keeps.pure _
    | cons d ds ih =>
      unfold millerLoopH
      exact Keeps.cast (Keeps.bind KeepsC.out fun _ => ih _ _) (zero_add 0)

instance (g : BnGlobals) (ret : Gf12) (aAffine minusA : TwistP) (bAffine : CurveP) (r2 : Gf2) (r : TwistP) : KeepsC (millerTail g ret aAffine minusA bAffine r2 r) (-14) where
  out := by unfold millerTail; keeps

instance (g : BnGlobals) (q : TwistP) (p : CurveP) : KeepsC (millerH g q p) 28 where
  out := by unfold millerH; keeps

instance (g : BnGlobals) (inp : Gf12) : KeepsC (finalExponentiationH g inp) 12 where
  out := by unfold finalExponentiationH; keeps

instance (g : BnGlobals) (a : TwistP) (b : CurveP) : KeepsC (optimalAteH g a b) 28 where
  out := by 
    unfold optimalAteH
    refine Keeps.cast (Keeps.bind KeepsC.out fun e => Keeps.bind KeepsC.out fun ret => Keeps.bind KeepsC.out fun _ =>
      Keeps.bind KeepsC.out fun _ => Keeps.bind KeepsC.out fun _ => (?_ : Keeps _ 0)) (by norm_num)
    dsimp only
    split
    · keeps
    · exact Keeps.pure _

end Verif
