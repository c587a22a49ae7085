import Verif.Model.P256Obj
import Verif.Lemmas.Secp

/-!
# Runs of `crypto/p256` on objects: temporary objects only grow the heap
-/

namespace Verif

open BigM

namespace BigHeap

/-- The heap with further objects, which have the values `L`. -/
def grow (s : BigHeap) (L : List Int) : BigHeap :=
  ⟨fun c => if s.next ≤ c then (L[c - s.next]?).getD (s.mem c) else s.mem c, s.next + L.length, s.pool⟩

theorem grow_nil (s : BigHeap) : s.grow [] = s := by
  unfold grow
  simp

theorem grow_mem (s : BigHeap) (L : List Int) {c : Cell} (h : c < s.next) : (s.grow L).mem c = s.mem c := by
  unfold grow
  simp [Nat.not_le.2 h]

theorem grow_get (s : BigHeap) (L : List Int) {i : Nat} {v : Int} (h : L[i]? = some v) : (s.grow L).mem (s.next + i) = v := by
  unfold grow
  simp [h]

end BigHeap

/-- Binding a step which is known. -/
theorem BigM.bind_of {α β : Type} {m : BigM α} {f : α → BigM β} {s s' : BigHeap} {a : α} (h : m s = .ok (a, s')) :
    (m >>= f) s = f a s' := by
  show (m s >>= fun r => f r.1 r.2) = _
  rw [h]; rfl

theorem BigM.assoc_bind {α β γ : Type} (m : BigM α) (f : α → BigM β) (g : β → BigM γ) :
    (m >>= f) >>= g = m >>= fun a => f a >>= g := by
  funext s
  show ((m s >>= fun r => f r.1 r.2) >>= fun r => g r.1 r.2) = (m s >>= fun r => f r.1 r.2 >>= fun r => g r.1 r.2)
  cases m s <;> rfl

theorem BigM.pure_then {α β : Type} (a : α) (f : α → BigM β) : (pure a : BigM α) >>= f = f a := rfl

theorem grow_new (s : BigHeap) (L : List Int) : new (s.grow L) = .ok (s.next + L.length, s.grow (L ++ [0])) := by
  unfold new BigHeap.grow
  congr 2
  simp only [BigHeap.mk.injEq, and_true, List.length_append, List.length_singleton, Nat.add_assoc]
  funext c
  by_cases h : c = s.next + L.length
  · subst h; simp
  · rw [if_neg h]
    replace h : ¬ @Eq Nat c (s.next + L.length) := h
    by_cases h1 : s.next ≤ c
    · rw [if_pos h1, if_pos h1]
      by_cases h2 : c - s.next < L.length
      · rw [List.getElem?_append_left h2]
      · have h3 : L.length ≤ c - s.next := Nat.not_lt.1 h2
        have h4 : L.length ≠ c - s.next := fun e => h (by rw [e]; exact (Nat.add_sub_cancel' h1).symm)
        rw [List.getElem?_eq_none h3, List.getElem?_eq_none (by
          rw [List.length_append, List.length_singleton]; exact Nat.lt_of_le_of_ne h3 h4)]
    · rw [if_neg h1, if_neg h1]

theorem grow_write (s : BigHeap) (L : List Int) {i : Nat} (h : i < L.length) (v : Int) :
    write (s.next + i) v (s.grow L) = .ok ((), s.grow (L.set i v)) := by
  unfold write BigHeap.grow
  congr 2
  simp only [BigHeap.mk.injEq, and_true, List.length_set]
  funext c
  by_cases hc : c = s.next + i
  · subst hc; simp [List.getElem?_set_self h]
  · rw [if_neg hc]
    replace hc : ¬ @Eq Nat c (s.next + i) := hc
    by_cases h1 : s.next ≤ c
    · rw [if_pos h1, if_pos h1, List.getElem?_set_ne (by omega)]
    · rw [if_neg h1, if_neg h1]

/-- The object `c` has the value `v`. -/
def At (s : BigHeap) (L : List Int) (c : Cell) (v : Int) : Prop := (s.grow L).mem c = v

theorem At.old {s : BigHeap} {L : List Int} {c : Cell} {v : Int} (h : c < s.next) (hv : s.mem c = v) : At s L c v := by
  rw [At, BigHeap.grow_mem _ _ h, hv]

theorem At.new {s : BigHeap} {L : List Int} {i : Nat} {v : Int} (h : L[i]? = some v) : At s L (s.next + i) v :=
  BigHeap.grow_get _ _ h

section steps

variable {s : BigHeap} {L : List Int} {i : Nat} {a b : Cell} {v w : Int}

theorem grow_add (h : i < L.length) (ha : At s L a v) (hb : At s L b w) :
    BigM.add (s.next + i) a b (s.grow L) = .ok ((), s.grow (L.set i (v + w))) := by
  rw [← ha, ← hb]; exact grow_write s L h _
theorem grow_sub (h : i < L.length) (ha : At s L a v) (hb : At s L b w) :
    BigM.sub (s.next + i) a b (s.grow L) = .ok ((), s.grow (L.set i (v - w))) := by
  rw [← ha, ← hb]; exact grow_write s L h _
theorem grow_mul (h : i < L.length) (ha : At s L a v) (hb : At s L b w) :
    BigM.mul (s.next + i) a b (s.grow L) = .ok ((), s.grow (L.set i (v * w))) := by
  rw [← ha, ← hb]; exact grow_write s L h _
theorem grow_set (h : i < L.length) (ha : At s L a v) :
    BigM.set (s.next + i) a (s.grow L) = .ok ((), s.grow (L.set i v)) := by
  rw [← ha]; exact grow_write s L h _
theorem grow_lsh1 (h : i < L.length) (ha : At s L a v) :
    BigM.lsh1 (s.next + i) a (s.grow L) = .ok ((), s.grow (L.set i (2 * v))) := by
  rw [← ha, Int.mul_comm]; exact grow_write s L h _
theorem grow_setInt (h : i < L.length) :
    BigM.setInt (s.next + i) v (s.grow L) = .ok ((), s.grow (L.set i v)) := grow_write s L h _
theorem grow_read (ha : At s L a v) : BigM.read a (s.grow L) = .ok (v, s.grow L) := by
  rw [← ha]; rfl
theorem grow_modC (h : i < L.length) (ha : At s L a v) (hb : At s L b w) (hw : w ≠ 0) :
    modC (s.next + i) a b (s.grow L) = .ok ((), s.grow (L.set i (v % w))) := by
  unfold modC
  rw [BigM.bind_of (grow_read hb), if_neg hw, BigM.bind_of (grow_read ha)]
  exact grow_write s L h _
theorem grow_addIfNeg (h : i < L.length) (ha : At s L (s.next + i) v) (hb : At s L curveP w) :
    addIfNeg (s.next + i) (s.grow L) = .ok ((), s.grow (L.set i (if v < 0 then v + w else v))) := by
  unfold addIfNeg
  rw [BigM.bind_of (grow_read ha)]
  by_cases hv : v < 0
  · rw [if_pos hv, if_pos hv]
    exact grow_add h ha hb
  · rw [if_neg hv, if_neg hv]
    show Res.ok _ = _
    congr 3
    rw [At, BigHeap.grow] at ha
    simp only [Nat.le_add_right, if_true, Nat.add_sub_cancel_left, List.getElem?_eq_getElem h, Option.getD_some] at ha
    rw [← ha]
    simp

end steps

/-! ### Straight-line code -/

/-- An operand: an object which exists already, or a new one. -/
inductive Opd
  | arg (c : Cell)
  | loc (i : Nat)

/-- A statement; the receiver is one of the new objects. -/
inductive IOp
  | new
  | mul (d : Nat) (a b : Opd)
  | add (d : Nat) (a b : Opd)
  | sub (d : Nat) (a b : Opd)
  | set (d : Nat) (a : Opd)
  | lsh1 (d : Nat) (a : Opd)
  | setInt (d : Nat) (v : Int)
  | modP (d : Nat) (a : Opd)
  | addIfNeg (d : Nat)

/-- The object of an operand. -/
def Opd.cell (env : List Cell) : Opd → Cell
  | .arg c => c
  | .loc i => env.getD i 0

/-- The statements, then `k`. -/
def runOps {α : Type} (k : List Cell → BigM α) : List IOp → List Cell → BigM α
  | [], env => k env
  | .new :: l, env => do
    let c ← BigM.new
    runOps k l (env ++ [c])
  | .mul d a b :: l, env => do
    BigM.mul (env.getD d 0) (a.cell env) (b.cell env)
    runOps k l env
  | .add d a b :: l, env => do
    BigM.add (env.getD d 0) (a.cell env) (b.cell env)
    runOps k l env
  | .sub d a b :: l, env => do
    BigM.sub (env.getD d 0) (a.cell env) (b.cell env)
    runOps k l env
  | .set d a :: l, env => do
    BigM.set (env.getD d 0) (a.cell env)
    runOps k l env
  | .lsh1 d a :: l, env => do
    BigM.lsh1 (env.getD d 0) (a.cell env)
    runOps k l env
  | .setInt d v :: l, env => do
    BigM.setInt (env.getD d 0) v
    runOps k l env
  | .modP d a :: l, env => do
    modC (env.getD d 0) (a.cell env) curveP
    runOps k l env
  | .addIfNeg d :: l, env => do
    Verif.addIfNeg (env.getD d 0)
    runOps k l env

/-- The value of an operand. -/
def Opd.val (mem : Cell → Int) (L : List Int) : Opd → Int
  | .arg c => mem c
  | .loc i => L.getD i 0

/-- The values of the new objects after the statements. -/
def evalOps (mem : Cell → Int) : List IOp → List Int → List Int
  | [], L => L
  | .new :: l, L => evalOps mem l (L ++ [0])
  | .mul d a b :: l, L => evalOps mem l (L.set d (a.val mem L * b.val mem L))
  | .add d a b :: l, L => evalOps mem l (L.set d (a.val mem L + b.val mem L))
  | .sub d a b :: l, L => evalOps mem l (L.set d (a.val mem L - b.val mem L))
  | .set d a :: l, L => evalOps mem l (L.set d (a.val mem L))
  | .lsh1 d a :: l, L => evalOps mem l (L.set d (2 * a.val mem L))
  | .setInt d v :: l, L => evalOps mem l (L.set d v)
  | .modP d a :: l, L => evalOps mem l (L.set d (a.val mem L % secpP))
  | .addIfNeg d :: l, L => evalOps mem l (L.set d (if L.getD d 0 < 0 then L.getD d 0 + secpP else L.getD d 0))

/-- The operand exists. -/
def Opd.Ok (next n : Nat) : Opd → Prop
  | .arg c => c < next
  | .loc i => i < n

/-- All operands exist. -/
def OpsOk (next : Nat) : List IOp → Nat → Prop
  | [], _ => True
  | .new :: l, n => OpsOk next l (n + 1)
  | .mul d a b :: l, n => d < n ∧ a.Ok next n ∧ b.Ok next n ∧ OpsOk next l n
  | .add d a b :: l, n => d < n ∧ a.Ok next n ∧ b.Ok next n ∧ OpsOk next l n
  | .sub d a b :: l, n => d < n ∧ a.Ok next n ∧ b.Ok next n ∧ OpsOk next l n
  | .set d a :: l, n => d < n ∧ a.Ok next n ∧ OpsOk next l n
  | .lsh1 d a :: l, n => d < n ∧ a.Ok next n ∧ OpsOk next l n
  | .setInt d _ :: l, n => d < n ∧ OpsOk next l n
  | .modP d a :: l, n => d < n ∧ a.Ok next n ∧ OpsOk next l n
  | .addIfNeg d :: l, n => d < n ∧ OpsOk next l n

/-- The new objects. -/
def newCells (s : BigHeap) (n : Nat) : List Cell := (List.range n).map (s.next + ·)

theorem newCells_getD {s : BigHeap} {n i : Nat} (h : i < n) : (newCells s n).getD i 0 = s.next + i := by
  simp [newCells, h]

theorem newCells_succ (s : BigHeap) (n : Nat) : newCells s n ++ [s.next + n] = newCells s (n + 1) := by
  simp [newCells, List.range_succ]

theorem Opd.at {s : BigHeap} {L : List Int} {o : Opd} (h : o.Ok s.next L.length) :
    At s L (o.cell (newCells s L.length)) (o.val s.mem L) := by
  cases o with
  | arg c => exact .old h rfl
  | loc i =>
    show At s L ((newCells s L.length).getD i 0) (L.getD i 0)
    rw [newCells_getD h]
    refine .new ?_
    rw [List.getElem?_eq_getElem h, List.getD_eq_getElem?_getD, List.getElem?_eq_getElem h]
    rfl

theorem runOps_grow {α : Type} (k : List Cell → BigM α) {s : BigHeap} (h0 : 0 < s.next) (hP : s.mem curveP = secpP) (l : List IOp) :
    ∀ L : List Int, OpsOk s.next l L.length → runOps k l (newCells s L.length) (s.grow L) =
      k (newCells s (evalOps s.mem l L).length) (s.grow (evalOps s.mem l L)) := by
  have hp : ∀ L, At s L curveP secpP := fun L => .old h0 hP
  have hp0 : secpP ≠ 0 := by decide
  induction l with
  | nil => intro L _; rfl
  | cons o l ih =>
    intro L hL
    cases o with
    | new =>
      refine (BigM.bind_of (grow_new s L)).trans ?_
      rw [newCells_succ, show L.length + 1 = (L ++ [(0 : Int)]).length by simp]
      exact ih _ (by rw [List.length_append]; exact hL)
    | mul d a b =>
      obtain ⟨h1, h2, h3, h4⟩ := hL
      show (BigM.mul ((newCells s L.length).getD d 0) _ _ >>= _) _ = _
      rw [newCells_getD h1]
      refine (BigM.bind_of (grow_mul h1 (Opd.at h2) (Opd.at h3))).trans ?_
      rw [← List.length_set (i := d) (a := a.val s.mem L * b.val s.mem L)] at h4 ⊢
      exact ih _ h4
    | add d a b =>
      obtain ⟨h1, h2, h3, h4⟩ := hL
      show (BigM.add ((newCells s L.length).getD d 0) _ _ >>= _) _ = _
      rw [newCells_getD h1]
      refine (BigM.bind_of (grow_add h1 (Opd.at h2) (Opd.at h3))).trans ?_
      rw [← List.length_set (i := d) (a := a.val s.mem L + b.val s.mem L)] at h4 ⊢
      exact ih _ h4
    | sub d a b =>
      obtain ⟨h1, h2, h3, h4⟩ := hL
      show (BigM.sub ((newCells s L.length).getD d 0) _ _ >>= _) _ = _
      rw [newCells_getD h1]
      refine (BigM.bind_of (grow_sub h1 (Opd.at h2) (Opd.at h3))).trans ?_
      rw [← List.length_set (i := d) (a := a.val s.mem L - b.val s.mem L)] at h4 ⊢
      exact ih _ h4
    | set d a =>
      obtain ⟨h1, h2, h4⟩ := hL
      show (BigM.set ((newCells s L.length).getD d 0) _ >>= _) _ = _
      rw [newCells_getD h1]
      refine (BigM.bind_of (grow_set h1 (Opd.at h2))).trans ?_
      rw [← List.length_set (i := d) (a := a.val s.mem L)] at h4 ⊢
      exact ih _ h4
    | lsh1 d a =>
      obtain ⟨h1, h2, h4⟩ := hL
      show (BigM.lsh1 ((newCells s L.length).getD d 0) _ >>= _) _ = _
      rw [newCells_getD h1]
      refine (BigM.bind_of (grow_lsh1 h1 (Opd.at h2))).trans ?_
      rw [← List.length_set (i := d) (a := 2 * a.val s.mem L)] at h4 ⊢
      exact ih _ h4
    | setInt d v =>
      obtain ⟨h1, h4⟩ := hL
      show (BigM.setInt ((newCells s L.length).getD d 0) _ >>= _) _ = _
      rw [newCells_getD h1]
      refine (BigM.bind_of (grow_setInt h1)).trans ?_
      rw [← List.length_set (i := d) (a := v)] at h4 ⊢
      exact ih _ h4
    | modP d a =>
      obtain ⟨h1, h2, h4⟩ := hL
      show (modC ((newCells s L.length).getD d 0) _ _ >>= _) _ = _
      rw [newCells_getD h1]
      refine (BigM.bind_of (grow_modC h1 (Opd.at h2) (hp L) hp0)).trans ?_
      rw [← List.length_set (i := d) (a := a.val s.mem L % secpP)] at h4 ⊢
      exact ih _ h4
    | addIfNeg d =>
      obtain ⟨h1, h4⟩ := hL
      show (Verif.addIfNeg ((newCells s L.length).getD d 0) >>= _) _ = _
      have ha := Opd.at (s := s) (L := L) (o := .loc d) h1
      change At s L ((newCells s L.length).getD d 0) (L.getD d 0) at ha
      rw [newCells_getD h1] at ha ⊢
      refine (BigM.bind_of (grow_addIfNeg h1 ha (hp L))).trans ?_
      rw [← List.length_set (i := d) (a := if L.getD d 0 < 0 then L.getD d 0 + secpP else L.getD d 0)] at h4 ⊢
      exact ih _ h4

/-! ### The curve -/

/-- The statements of `addJacobian`, after `z1 = z2` was allocated as the first new object. -/
def jacOps (x1 y1 x2 y2 : Cell) : List IOp := [
  .new, .setInt 0 1,
  .new, .mul 1 (.loc 0) (.loc 0), .modP 1 (.loc 1),
  .new, .mul 2 (.loc 0) (.loc 0), .modP 2 (.loc 2),
  .new, .mul 3 (.arg x1) (.loc 2), .modP 3 (.loc 3),
  .new, .mul 4 (.arg x2) (.loc 1), .modP 4 (.loc 4),
  .new, .sub 5 (.loc 4) (.loc 3), .addIfNeg 5,
  .new, .lsh1 6 (.loc 5), .mul 6 (.loc 6) (.loc 6),
  .new, .mul 7 (.loc 5) (.loc 6),
  .new, .mul 8 (.arg y1) (.loc 0), .mul 8 (.loc 8) (.loc 2), .modP 8 (.loc 8),
  .new, .mul 9 (.arg y2) (.loc 0), .mul 9 (.loc 9) (.loc 1), .modP 9 (.loc 9),
  .new, .sub 10 (.loc 9) (.loc 8), .addIfNeg 10, .lsh1 10 (.loc 10),
  .new, .mul 11 (.loc 3) (.loc 6),
  .new, .set 12 (.loc 10), .mul 12 (.loc 12) (.loc 12), .sub 12 (.loc 12) (.loc 7), .sub 12 (.loc 12) (.loc 11),
  .sub 12 (.loc 12) (.loc 11), .modP 12 (.loc 12),
  .new, .set 13 (.loc 10), .sub 11 (.loc 11) (.loc 12), .mul 13 (.loc 13) (.loc 11), .mul 8 (.loc 8) (.loc 7), .lsh1 8 (.loc 8),
  .sub 13 (.loc 13) (.loc 8), .modP 13 (.loc 13),
  .new, .add 14 (.loc 0) (.loc 0), .mul 14 (.loc 14) (.loc 14), .sub 14 (.loc 14) (.loc 1), .addIfNeg 14,
  .sub 14 (.loc 14) (.loc 2), .addIfNeg 14, .mul 14 (.loc 14) (.loc 5), .modP 14 (.loc 14)]

theorem curveAddO_eq (x1 y1 x2 y2 : Cell) : curveAddO x1 y1 x2 y2 =
    runOps (fun env => affineFromJacobianO (env.getD 12 0) (env.getD 13 0) (env.getD 14 0)) (jacOps x1 y1 x2 y2) [] := by
  unfold curveAddO addJacobianO
  simp only [BigM.assoc_bind, BigM.pure_then, jacOps, runOps, Opd.cell, List.nil_append, List.cons_append, List.getD_cons_zero,
    List.getD_cons_succ]

theorem jacOps_ok {s : BigHeap} {x1 y1 x2 y2 : Cell} (h1 : x1 < s.next) (h2 : y1 < s.next) (h3 : x2 < s.next) (h4 : y2 < s.next) :
    OpsOk s.next (jacOps x1 y1 x2 y2) 0 := by
  simp [jacOps, OpsOk, Opd.Ok, h1, h2, h3, h4]

/-- How many objects the statements make. -/
def newCount : List IOp → Nat
  | [] => 0
  | .new :: l => newCount l + 1
  | _ :: l => newCount l

theorem evalOps_length (mem : Cell → Int) (l : List IOp) : ∀ L, (evalOps mem l L).length = newCount l + L.length := by
  induction l with
  | nil => intro L; simp [evalOps, newCount]
  | cons o l ih => intro L; cases o <;> simp [evalOps, newCount, ih] <;> omega

theorem jacOps_length (mem : Cell → Int) (x1 y1 x2 y2 : Cell) : (evalOps mem (jacOps x1 y1 x2 y2) []).length = 15 := by
  rw [evalOps_length]; rfl

theorem jacOps_eval (mem : Cell → Int) (x1 y1 x2 y2 : Cell) :
    ((evalOps mem (jacOps x1 y1 x2 y2) []).getD 12 0, (evalOps mem (jacOps x1 y1 x2 y2) []).getD 13 0,
      (evalOps mem (jacOps x1 y1 x2 y2) []).getD 14 0) = addJacobian (mem x1) (mem y1) 1 (mem x2) (mem y2) 1 := by
  simp only [jacOps, evalOps, Opd.val, List.nil_append, List.cons_append, List.set_cons_zero, List.set_cons_succ, List.getD_cons_zero,
    List.getD_cons_succ, addJacobian]

/-- The statements of `addJacobian` for any six arguments. -/
def jacOpsG (x1 y1 z1 x2 y2 z2 : Cell) : List IOp := [
  .new, .mul 0 (.arg z1) (.arg z1), .modP 0 (.loc 0),
  .new, .mul 1 (.arg z2) (.arg z2), .modP 1 (.loc 1),
  .new, .mul 2 (.arg x1) (.loc 1), .modP 2 (.loc 2),
  .new, .mul 3 (.arg x2) (.loc 0), .modP 3 (.loc 3),
  .new, .sub 4 (.loc 3) (.loc 2), .addIfNeg 4,
  .new, .lsh1 5 (.loc 4), .mul 5 (.loc 5) (.loc 5),
  .new, .mul 6 (.loc 4) (.loc 5),
  .new, .mul 7 (.arg y1) (.arg z2), .mul 7 (.loc 7) (.loc 1), .modP 7 (.loc 7),
  .new, .mul 8 (.arg y2) (.arg z1), .mul 8 (.loc 8) (.loc 0), .modP 8 (.loc 8),
  .new, .sub 9 (.loc 8) (.loc 7), .addIfNeg 9, .lsh1 9 (.loc 9),
  .new, .mul 10 (.loc 2) (.loc 5),
  .new, .set 11 (.loc 9), .mul 11 (.loc 11) (.loc 11), .sub 11 (.loc 11) (.loc 6), .sub 11 (.loc 11) (.loc 10),
  .sub 11 (.loc 11) (.loc 10), .modP 11 (.loc 11),
  .new, .set 12 (.loc 9), .sub 10 (.loc 10) (.loc 11), .mul 12 (.loc 12) (.loc 10), .mul 7 (.loc 7) (.loc 6), .lsh1 7 (.loc 7),
  .sub 12 (.loc 12) (.loc 7), .modP 12 (.loc 12),
  .new, .add 13 (.arg z1) (.arg z2), .mul 13 (.loc 13) (.loc 13), .sub 13 (.loc 13) (.loc 0), .addIfNeg 13,
  .sub 13 (.loc 13) (.loc 1), .addIfNeg 13, .mul 13 (.loc 13) (.loc 4), .modP 13 (.loc 13)]

theorem addJacobianO_eq (x1 y1 z1 x2 y2 z2 : Cell) : addJacobianO x1 y1 z1 x2 y2 z2 =
    runOps (fun env => (pure (env.getD 11 0, env.getD 12 0, env.getD 13 0) : BigM (Cell × Cell × Cell)))
      (jacOpsG x1 y1 z1 x2 y2 z2) [] := by
  unfold addJacobianO
  simp only [BigM.assoc_bind, BigM.pure_then, jacOpsG, runOps, Opd.cell, List.nil_append, List.cons_append, List.getD_cons_zero,
    List.getD_cons_succ]

theorem jacOpsG_ok {s : BigHeap} {x1 y1 z1 x2 y2 z2 : Cell} (h1 : x1 < s.next) (h2 : y1 < s.next) (h5 : z1 < s.next)
    (h3 : x2 < s.next) (h4 : y2 < s.next) (h6 : z2 < s.next) : OpsOk s.next (jacOpsG x1 y1 z1 x2 y2 z2) 0 := by
  simp [jacOpsG, OpsOk, Opd.Ok, h1, h2, h3, h4, h5, h6]

theorem jacOpsG_length (mem : Cell → Int) (x1 y1 z1 x2 y2 z2 : Cell) : (evalOps mem (jacOpsG x1 y1 z1 x2 y2 z2) []).length = 14 := by
  rw [evalOps_length]; rfl

theorem jacOpsG_eval (mem : Cell → Int) (x1 y1 z1 x2 y2 z2 : Cell) :
    ((evalOps mem (jacOpsG x1 y1 z1 x2 y2 z2) []).getD 11 0, (evalOps mem (jacOpsG x1 y1 z1 x2 y2 z2) []).getD 12 0,
      (evalOps mem (jacOpsG x1 y1 z1 x2 y2 z2) []).getD 13 0) =
      addJacobian (mem x1) (mem y1) (mem z1) (mem x2) (mem y2) (mem z2) := by
  simp only [jacOpsG, evalOps, Opd.val, List.nil_append, List.cons_append, List.set_cons_zero, List.set_cons_succ, List.getD_cons_zero,
    List.getD_cons_succ, addJacobian]

end Verif
