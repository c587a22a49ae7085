import Mathlib.Tactic.Common
import Verif.Model.Par

/-!
# What the programs of `Model/Par.lean` read and write at each step
-/

namespace Verif

/-- Whatever the memory contains, the program reads and writes only the structs numbered from `n` on, the shared structs in `W`, and
reads those in `R`; and its result satisfies `Q`. -/
def Prog.Safe {α : Type} (n : Nat) (R W : Addr → Prop) : Prog α → (α → Prop) → Prop
  | .ret a, Q => Q a
  | .panic, _ => True
  | .load a k, Q => (n ≤ a ∨ R a ∨ W a) ∧ ∀ v, (k v).Safe n R W Q
  | .new k, Q => ∀ a, n ≤ a → (k a).Safe n R W Q
  | .setX p _ k, Q => (n ≤ p ∨ W p) ∧ k.Safe n R W Q
  | .setY p _ k, Q => (n ≤ p ∨ W p) ∧ k.Safe n R W Q

/-- Addresses which may be read. -/
def Rd (n : Nat) (R W : Addr → Prop) (a : Addr) : Prop := n ≤ a ∨ R a ∨ W a

/-- Addresses which may be written. -/
def Wr (n : Nat) (W : Addr → Prop) (a : Addr) : Prop := n ≤ a ∨ W a

/-- All addresses of a slice may be read. -/
def AllRd (n : Nat) (R W : Addr → Prop) (l : List Addr) : Prop := ∀ a ∈ l, Rd n R W a

section
variable {n : Nat} {R W : Addr → Prop} {α β : Type}

theorem Wr.rd {a : Addr} (h : Wr n W a) : Rd n R W a := h.imp id Or.inr

namespace Prog.Safe

theorem mono {p : Prog α} {Q Q' : α → Prop} (h : p.Safe n R W Q) (h' : ∀ a, Q a → Q' a) : p.Safe n R W Q' := by
  induction p with
  | ret a => exact h' a h
  | panic => trivial
  | load a k ih => exact ⟨h.1, fun v => ih v (h.2 v)⟩
  | new k ih => exact fun a ha => ih a (h a ha)
  | setX p v k ih => exact ⟨h.1, ih h.2⟩
  | setY p v k ih => exact ⟨h.1, ih h.2⟩

theorem bind {p : Prog α} {f : α → Prog β} {Q : α → Prop} {Q' : β → Prop} (h : p.Safe n R W Q)
    (h' : ∀ a, Q a → (f a).Safe n R W Q') : (p >>= f).Safe n R W Q' := by
  change (p.bind f).Safe n R W Q'
  induction p with
  | ret a => exact h' a h
  | panic => trivial
  | load a k ih => exact ⟨h.1, fun v => ih v (h.2 v)⟩
  | new k ih => exact fun a ha => ih a (h a ha)
  | setX p v k ih => exact ⟨h.1, ih h.2⟩
  | setY p v k ih => exact ⟨h.1, ih h.2⟩

theorem pure {a : α} {Q : α → Prop} (h : Q a) : Safe n R W (Pure.pure a) Q := h

theorem lift {r : Res α} {Q : α → Prop} (h : ∀ a, r = .ok a → Q a) : (Prog.lift r).Safe n R W Q := by
  cases r with
  | panic => trivial
  | ok a => exact h a rfl

theorem ite {c : Prop} [Decidable c] {p q : Prog α} {Q : α → Prop} (h : p.Safe n R W Q) (h' : q.Safe n R W Q) :
    (if c then p else q).Safe n R W Q := by
  split
  · exact h
  · exact h'

end Prog.Safe

namespace Par

local notation "Ok" => fun _ => True

theorem lift_safe (r : Res α) : (Prog.lift r).Safe n R W Ok := .lift fun _ _ => trivial

theorem load_safe {a : Addr} (h : Rd n R W a) : (load a).Safe n R W Ok := ⟨h, fun _ => trivial⟩

theorem new_safe : new.Safe n R W (fun a => Wr n W a) := fun _ h => Or.inl h

theorem setX_safe {p : Addr} (h : Wr n W p) (v : Option Int) : (setX p v).Safe n R W Ok := ⟨h, trivial⟩

theorem setY_safe {p : Addr} (h : Wr n W p) (v : Option Int) : (setY p v).Safe n R W Ok := ⟨h, trivial⟩

theorem idx_safe {l : List Addr} (h : AllRd n R W l) (i : Nat) : (Prog.lift (idx l i)).Safe n R W (fun a => Rd n R W a) :=
  .lift fun a e => by
    unfold idx at e
    cases hl : l[i]? with
    | none => rw [hl] at e; cases e
    | some b =>
      rw [hl] at e
      obtain rfl := Res.ok.inj e
      exact h _ (List.mem_of_getElem? hl)

theorem sliceTo_safe {l : List Addr} (h : AllRd n R W l) (i : Int) :
    (Prog.lift (sliceTo l i)).Safe n R W (fun a => AllRd n R W a) :=
  .lift fun a e => by
    unfold sliceTo at e
    split at e
    · cases e
    · obtain rfl := Res.ok.inj e
      exact fun b hb => h b (List.mem_of_mem_take hb)

theorem sliceFrom_safe {l : List Addr} (h : AllRd n R W l) (i : Int) :
    (Prog.lift (sliceFrom l i)).Safe n R W (fun a => AllRd n R W a) :=
  .lift fun a e => by
    unfold sliceFrom at e
    split at e
    · cases e
    · obtain rfl := Res.ok.inj e
      exact fun b hb => h b (List.mem_of_mem_drop hb)

theorem setInfinityM_safe {p : Addr} (hp : Wr n W p) : (setInfinityM p).Safe n R W Ok :=
  (setX_safe hp _).bind fun _ _ => setY_safe hp _

theorem writeM_safe {p : Addr} (hp : Wr n W p) (v : P256) : (writeM p v).Safe n R W Ok :=
  (setX_safe hp _).bind fun _ _ => setY_safe hp _

theorem copyM_safe {p a : Addr} (hp : Wr n W p) (ha : Rd n R W a) : (copyM p a).Safe n R W Ok :=
  (load_safe ha).bind fun _ _ => (setX_safe hp _).bind fun _ _ => (load_safe ha).bind fun _ _ => setY_safe hp _

theorem addM_safe {p a b : Addr} (hp : Wr n W p) (ha : Rd n R W a) (hb : Rd n R W b) : (addM p a b).Safe n R W Ok :=
  (load_safe ha).bind fun _ _ => .ite (copyM_safe hp hb)
    ((load_safe hb).bind fun _ _ => .ite (copyM_safe hp hb) (writeM_safe hp _))

variable (E : Ext)

theorem multiplyM_safe {p a b : Addr} (hp : Wr n W p) (ha : Rd n R W a) (hb : Rd n R W b) :
    (multiplyM E p a b).Safe n R W Ok :=
  (load_safe ha).bind fun _ _ => .ite (copyM_safe hp hb)
    ((load_safe hb).bind fun _ _ => .ite (copyM_safe hp ha) (.ite (writeM_safe hp _) (writeM_safe hp _)))

theorem scalarMultM_safe {p a : Addr} (hp : Wr n W p) (ha : Rd n R W a) (k : Int) : (scalarMultM E p a k).Safe n R W Ok :=
  (load_safe ha).bind fun _ _ => .ite (setInfinityM_safe hp) (.ite (setInfinityM_safe hp) (writeM_safe hp _))

theorem scalarBaseMultM_safe {p : Addr} (hp : Wr n W p) (k : Int) : (scalarBaseMultM E p k).Safe n R W Ok :=
  .ite (setInfinityM_safe hp) (writeM_safe hp _)

theorem negM_safe {p a : Addr} (hp : Wr n W p) (ha : Rd n R W a) : (negM E p a).Safe n R W Ok :=
  (load_safe ha).bind fun _ _ => .ite (setInfinityM_safe hp) (scalarMultM_safe E hp hp.rd _)

theorem newScalarMultM_safe {a : Addr} (ha : Rd n R W a) (k : Int) : (newScalarMultM E a k).Safe n R W (fun p => Wr n W p) :=
  new_safe.bind fun _ hp => (scalarMultM_safe E hp ha k).bind fun _ _ => .pure hp

theorem newMultiplyM_safe {a b : Addr} (ha : Rd n R W a) (hb : Rd n R W b) :
    (newMultiplyM E a b).Safe n R W (fun p => Wr n W p) :=
  new_safe.bind fun _ hp => (multiplyM_safe E hp ha hb).bind fun _ _ => .pure hp

theorem mapToGroupM_safe (m : List UInt8) : (mapToGroupM E m).Safe n R W (fun q => ∀ p, q = some p → Wr n W p) := by
  refine (lift_safe _).bind fun q _ => ?_
  cases q with
  | none => exact .pure (fun _ h => by cases h)
  | some q => exact new_safe.bind fun _ hp => (writeM_safe hp q).bind fun _ _ => .pure (fun p h => by cases h; exact hp)

theorem commitG1M_safe (x r : Int) {h : Addr} (hh : Rd n R W h) : (commitG1M E x r h).Safe n R W (fun p => Wr n W p) :=
  new_safe.bind fun _ hp => (scalarBaseMultM_safe E hp x).bind fun _ _ => (newScalarMultM_safe E hh r).bind fun _ hq =>
    (addM_safe hp hp.rd hq.rd).bind fun _ _ => .pure hp

theorem vectorExpLoopM_safe {res : Addr} (hp : Wr n W res) : ∀ {a : List Addr} (_ : AllRd n R W a) (b : List Int),
    (vectorExpLoopM E res a b).Safe n R W Ok
  | [], _, _ => .pure trivial
  | _ :: _, _, [] => .pure trivial
  | p :: a, ha, k :: b => (newScalarMultM_safe E (ha p List.mem_cons_self) k).bind fun _ hq =>
      (multiplyM_safe E hp hp.rd hq.rd).bind fun _ _ =>
      vectorExpLoopM_safe hp (fun q hq => ha q (List.mem_cons_of_mem _ hq)) b

theorem vectorExpM_safe {a : List Addr} (ha : AllRd n R W a) (b : List Int) :
    (vectorExpM E a b).Safe n R W (fun p => Wr n W p) :=
  .ite trivial (new_safe.bind fun _ hp => (setInfinityM_safe hp).bind fun _ _ =>
    (vectorExpLoopM_safe E hp ha b).bind fun _ _ => .pure hp)

theorem AllRd.cons {p : Addr} {a : List Addr} (hp : Rd n R W p) (ha : AllRd n R W a) : AllRd n R W (p :: a) := fun q hq => by
  rcases List.mem_cons.1 hq with rfl | h
  · exact hp
  · exact ha q h

theorem AllRd.snoc {p : Addr} {a : List Addr} (ha : AllRd n R W a) (hp : Rd n R W p) : AllRd n R W (a ++ [p]) := fun q hq => by
  rcases List.mem_append.1 hq with h | h
  · exact ha q h
  · rw [List.mem_singleton.1 h]; exact hp

theorem AllRd.nil : AllRd n R W [] := fun _ h => absurd h List.not_mem_nil

theorem vectorScalarExpM_safe (b : Int) : ∀ {a : List Addr} (_ : AllRd n R W a),
    (vectorScalarExpM E b a).Safe n R W (fun l => AllRd n R W l)
  | [], _ => .pure AllRd.nil
  | p :: a, ha => (newScalarMultM_safe E (ha p List.mem_cons_self) b).bind fun _ hq =>
      (vectorScalarExpM_safe b (fun q hq => ha q (List.mem_cons_of_mem _ hq))).bind fun _ hl => .pure (AllRd.cons hq.rd hl)

theorem vectorECAddLoopM_safe : ∀ {a b : List Addr} (_ : AllRd n R W a) (_ : AllRd n R W b),
    (vectorECAddLoopM E a b).Safe n R W (fun l => AllRd n R W l)
  | [], _, _, _ => .pure AllRd.nil
  | _ :: _, [], _, _ => .pure AllRd.nil
  | p :: a, q :: b, ha, hb => (newMultiplyM_safe E (ha p List.mem_cons_self) (hb q List.mem_cons_self)).bind fun _ hq =>
      (vectorECAddLoopM_safe (fun q hq => ha q (List.mem_cons_of_mem _ hq)) (fun q hq => hb q (List.mem_cons_of_mem _ hq))).bind
        fun _ hl => .pure (AllRd.cons hq.rd hl)

theorem foldM_safe {a b : List Addr} (ha : AllRd n R W a) (hb : AllRd n R W b) (x y : Int) :
    (foldM E a x b y).Safe n R W (fun l => AllRd n R W l) :=
  (vectorScalarExpM_safe E x ha).bind fun _ h1 => (vectorScalarExpM_safe E y hb).bind fun _ h2 =>
    .ite (.pure AllRd.nil) (vectorECAddLoopM_safe E h1 h2)

theorem hashBPM_safe {a b : Addr} (ha : Rd n R W a) (hb : Rd n R W b) : (hashBPM E a b).Safe n R W Ok :=
  (load_safe ha).bind fun _ _ => (load_safe hb).bind fun _ _ => .pure trivial

theorem isZeroM_safe {a : Addr} (ha : Rd n R W a) : (isZeroM a).Safe n R W Ok := (load_safe ha).bind fun _ _ => .pure trivial

theorem loadAllM_safe : ∀ {a : List Addr} (_ : AllRd n R W a), (loadAllM a).Safe n R W Ok
  | [], _ => .pure trivial
  | p :: a, ha => (load_safe (ha p List.mem_cons_self)).bind fun _ _ =>
      (loadAllM_safe (fun q hq => ha q (List.mem_cons_of_mem _ hq))).bind fun _ _ => .pure trivial

theorem hashIPM_safe {g h : List Addr} {P : Addr} (hg : AllRd n R W g) (hh : AllRd n R W h) (hP : Rd n R W P) (c k : Int) :
    (hashIPM E g h P c k).Safe n R W Ok :=
  (load_safe hP).bind fun _ _ => (loadAllM_safe hg).bind fun _ _ => (loadAllM_safe hh).bind fun _ _ => lift_safe _

theorem commitInnerProductM_safe {g h : List Addr} (hg : AllRd n R W g) (hh : AllRd n R W h) (a b : List Int) :
    (commitInnerProductM E g h a b).Safe n R W (fun p => Wr n W p) :=
  (vectorExpM_safe E hg a).bind fun _ h1 => (vectorExpM_safe E hh b).bind fun _ h2 => newMultiplyM_safe E h1.rd h2.rd

theorem crossTermM_safe {g h : List Addr} {u : Addr} (hg : AllRd n R W g) (a : List Int) (hh : AllRd n R W h) (b : List Int)
    (hu : Rd n R W u) (c : Int) : (crossTermM E g a h b u c).Safe n R W (fun p => Wr n W p) :=
  (vectorExpM_safe E hg a).bind fun _ hp => (vectorExpM_safe E hh b).bind fun _ h2 =>
    (multiplyM_safe E hp hp.rd h2.rd).bind fun _ _ => (newScalarMultM_safe E hu c).bind fun _ h3 =>
    (multiplyM_safe E hp hp.rd h3.rd).bind fun _ _ => .pure hp

/-- The structs of an inner-product proof which `Verify` uses. -/
structure IPAccess (n : Nat) (R W : Addr → Prop) (p : IPProofM) : Prop where
  Ls : AllRd n R W p.Ls
  Rs : AllRd n R W p.Rs
  U : Rd n R W p.U
  Gg : AllRd n R W p.Params.Gg
  Hh : AllRd n R W p.Params.Hh
  P : Wr n W p.Params.P

theorem computeBipM_safe {params : IPParamsM} (hG : AllRd n R W params.Gg) (hH : AllRd n R W params.Hh) (hPP : Wr n W params.P) :
    ∀ (fuel : Nat) (a b : List Int) {g h : List Addr} {u P : Addr} (k : Nat) {Ls Rs : List Addr}, AllRd n R W g → AllRd n R W h →
    Rd n R W u → Rd n R W P → AllRd n R W Ls → AllRd n R W Rs →
    (computeBipM E params fuel a b g h u P k Ls Rs).Safe n R W (fun p => IPAccess n R W p)
  | 0, _, _, _, _, _, _, _, _, _, _, _, _, _, _, _ => trivial
  | fuel + 1, a, b, g, h, u, P, k, Ls, Rs, hg, hh, hu, hP, hL, hR => by
    unfold computeBipM
    refine .ite ((lift_safe _).bind fun _ _ => (lift_safe _).bind fun _ _ => (lift_safe _).bind fun _ _ =>
      (lift_safe _).bind fun _ _ => .pure ⟨hL, hR, hu, hG, hH, hPP⟩) ?_
    refine (lift_safe _).bind fun _ _ => (lift_safe _).bind fun _ _ => (lift_safe _).bind fun _ _ => (lift_safe _).bind fun _ _ =>
      (sliceTo_safe hg _).bind fun _ hg1 => (sliceFrom_safe hg _).bind fun _ hg2 => (sliceTo_safe hh _).bind fun _ hh1 =>
      (sliceFrom_safe hh _).bind fun _ hh2 => (lift_safe _).bind fun _ _ => (lift_safe _).bind fun _ _ => ?_
    refine (crossTermM_safe E hg2 _ hh1 _ hu _).bind fun L hL' => (crossTermM_safe E hg1 _ hh2 _ hu _).bind fun R' hR' =>
      (hashBPM_safe E hL'.rd hR'.rd).bind fun _ _ => (lift_safe _).bind fun _ _ => (foldM_safe E hg1 hg2 _ _).bind fun _ hg' =>
      (foldM_safe E hh1 hh2 _ _).bind fun _ hh' => (lift_safe _).bind fun _ _ => ?_
    refine (newScalarMultM_safe E hL'.rd _).bind fun _ hp => (multiplyM_safe E hp hp.rd hP).bind fun _ _ =>
      (newScalarMultM_safe E hR'.rd _).bind fun _ hq => (multiplyM_safe E hp hp.rd hq.rd).bind fun _ _ => ?_
    exact (computeBipM_safe hG hH hPP fuel _ _ _ hg' hh' hu hp.rd (AllRd.snoc hL hL'.rd) (AllRd.snoc hR hR'.rd)).bind fun _ h =>
      .pure ⟨h.Ls, h.Rs, h.U, h.Gg, h.Hh, h.P⟩

theorem proveInnerProductM_safe (a b : List Int) {P : Addr} {params : IPParamsM} (hP : Rd n R W P) (hG : AllRd n R W params.Gg)
    (hH : AllRd n R W params.Hh) (hU : Rd n R W params.Uu) :
    (proveInnerProductM E a b P params).Safe n R W (fun o => ∀ p, o = some p → IPAccess n R W p) :=
  .ite (.pure fun _ h => by cases h) ((hashIPM_safe E hG hH hP _ _).bind fun _ _ => (lift_safe _).bind fun _ _ =>
    (newScalarMultM_safe E hU _).bind fun _ hu => (newScalarMultM_safe E hu.rd _).bind fun _ hc =>
    (newMultiplyM_safe E hP hc.rd).bind fun PP hPP =>
      (computeBipM_safe E (params := { params with P := PP }) hG hH hPP _ _ _ _ hG hH hu.rd hPP.rd AllRd.nil AllRd.nil).bind
        fun _ h => .pure fun _ e => by cases e; exact h)

theorem commitVectorLoopM_safe (aL aR : List Int) {g h : List Addr} {r : Addr} (hg : AllRd n R W g) (hh : AllRd n R W h)
    (hp : Wr n W r) : ∀ fuel i : Nat, (commitVectorLoopM E aL aR g h r fuel i).Safe n R W Ok
  | 0, _ => .pure trivial
  | fuel + 1, i => (idx_safe hg i).bind fun _ h1 => (lift_safe _).bind fun _ _ => (idx_safe hh i).bind fun _ h2 =>
      (lift_safe _).bind fun _ _ => (newScalarMultM_safe E h1 _).bind fun _ h3 => (newScalarMultM_safe E h2 _).bind fun _ h4 =>
      (multiplyM_safe E hp hp.rd h3.rd).bind fun _ _ => (multiplyM_safe E hp hp.rd h4.rd).bind fun _ _ =>
      commitVectorLoopM_safe aL aR hg hh hp fuel (i + 1)

theorem commitVectorM_safe (aL aR : List Int) (alpha : Int) {H : Addr} {g h : List Addr} (hH : Rd n R W H) (hg : AllRd n R W g)
    (hh : AllRd n R W h) (k : Int) : (commitVectorM E aL aR alpha H g h k).Safe n R W (fun p => Wr n W p) :=
  (newScalarMultM_safe E hH _).bind fun _ hp => (commitVectorLoopM_safe E aL aR hg hh hp _ _).bind fun _ _ => .pure hp

theorem updateGeneratorsLoopM_safe {Hh : List Addr} (hH : AllRd n R W Hh) (yinv : Int) : ∀ (fuel i : Nat) (e : Int),
    (updateGeneratorsLoopM E Hh yinv fuel i e).Safe n R W (fun l => AllRd n R W l)
  | 0, _, _ => .pure AllRd.nil
  | fuel + 1, i, _ => (idx_safe hH i).bind fun _ h1 => (newScalarMultM_safe E h1 _).bind fun _ h2 =>
      (updateGeneratorsLoopM_safe hH yinv fuel _ _).bind fun _ h3 => .pure (AllRd.cons h2.rd h3)

theorem updateGeneratorsM_safe {Hh : List Addr} (hH : AllRd n R W Hh) (y k : Int) :
    (updateGeneratorsM E Hh y k).Safe n R W (fun l => AllRd n R W l) :=
  .ite trivial ((idx_safe hH 0).bind fun _ h0 => .ite (.pure (AllRd.cons h0 AllRd.nil)) ((lift_safe _).bind fun _ _ =>
    (updateGeneratorsLoopM_safe E hH _ _ _ _).bind fun _ h => .pure (AllRd.cons h0 h)))

theorem setupInnerProductM_safe {H : Addr} {g h : List Addr} (hg : AllRd n R W g) (hh : AllRd n R W h) (c k : Int) :
    (setupInnerProductM E H g h c k).Safe n R W (fun o => ∀ p, o = some p → Rd n R W p.Uu ∧ AllRd n R W p.Gg ∧ AllRd n R W p.Hh) :=
  .ite (.pure fun _ h => by cases h) ((mapToGroupM_safe E _).bind fun u hu =>
    (Prog.Safe.lift (Q := fun a => Wr n W a) fun a e => by
      cases u with
      | none => cases e
      | some u => obtain rfl := Res.ok.inj e; exact hu _ rfl).bind fun _ hu => new_safe.bind fun _ hp =>
    (setInfinityM_safe hp).bind fun _ _ => .pure fun _ e => by cases e; exact ⟨hu.rd, hg, hh⟩)

/-- The parameters may be read. -/
structure ParamsAccess (n : Nat) (R W : Addr → Prop) (p : BPParamsM) : Prop where
  H : Rd n R W p.H
  Gg : AllRd n R W p.Gg
  Hh : AllRd n R W p.Hh

/-- The structs of a range proof which `Verify` uses. -/
structure ProofAccess (n : Nat) (R W : Addr → Prop) (p : BPProofM) : Prop where
  V : Rd n R W p.V
  A : Rd n R W p.A
  S : Rd n R W p.S
  T1 : Rd n R W p.T1
  T2 : Rd n R W p.T2
  Commit : Rd n R W p.Commit
  IP : IPAccess n R W p.IP
  Params : ParamsAccess n R W p.Params

theorem proveM_safe (rnd : BPRand) (secret : Int) {params : BPParamsM} (hp : ParamsAccess n R W params) :
    (proveM E rnd secret params).Safe n R W (fun o => ∀ p, o = some p → ProofAccess n R W p) := by
  unfold proveM
  refine (commitG1M_safe E _ _ hp.H).bind fun _ hV => (lift_safe _).bind fun _ _ =>
    (commitVectorM_safe E _ _ _ hp.H hp.Gg hp.Hh _).bind fun _ hA =>
    (commitVectorM_safe E _ _ _ hp.H hp.Gg hp.Hh _).bind fun _ hS => (hashBPM_safe E hA.rd hS.rd).bind fun _ _ => ?_
  refine (lift_safe _).bind fun _ _ => (lift_safe _).bind fun _ _ => (lift_safe _).bind fun _ _ => (lift_safe _).bind fun _ _ =>
    (lift_safe _).bind fun _ _ => (lift_safe _).bind fun _ _ => (lift_safe _).bind fun _ _ => (lift_safe _).bind fun _ _ =>
    (commitG1M_safe E _ _ hp.H).bind fun _ hT1 => (commitG1M_safe E _ _ hp.H).bind fun _ hT2 =>
    (hashBPM_safe E hT1.rd hT2.rd).bind fun _ _ => ?_
  refine (lift_safe _).bind fun _ _ => (updateGeneratorsM_safe E hp.Hh _ _).bind fun _ hh' =>
    (setupInnerProductM_safe E hp.Gg hh' _ _).bind fun ipp hi => ?_
  cases ipp with
  | none => exact .pure fun _ h => by cases h
  | some ipp =>
    obtain ⟨i1, i2, i3⟩ := hi _ rfl
    refine (commitInnerProductM_safe E hp.Gg hh' _ _).bind fun _ hc => (proveInnerProductM_safe E _ _ hc.rd i2 i3 i1).bind fun o ho => ?_
    refine (Prog.Safe.lift (Q := fun a => IPAccess n R W a) fun a e => ?_).bind fun _ hip => .pure fun _ e => ?_
    · cases o with
      | none => cases e
      | some q => obtain rfl := Res.ok.inj e; exact ho _ rfl
    · cases e
      exact ⟨hV.rd, hA.rd, hS.rd, hT1.rd, hT2.rd, hc.rd, hip, hp⟩

theorem ipVerifyLoopM_safe {P : Addr} (hP : Wr n W P) : ∀ {Ls Rs g h : List Addr} (k : Int), AllRd n R W Ls → AllRd n R W Rs →
    AllRd n R W g → AllRd n R W h →
    (ipVerifyLoopM E P Ls Rs g h k).Safe n R W (fun r => AllRd n R W r.1 ∧ AllRd n R W r.2)
  | [], _, _, _, _, _, _, hg, hh => by unfold ipVerifyLoopM; exact .pure ⟨hg, hh⟩
  | _ :: _, [], _, _, _, _, _, _, _ => trivial
  | L :: Ls, R' :: Rs, g, h, k, hL, hR, hg, hh => by
    have hL0 := hL L List.mem_cons_self
    have hR0 := hR R' List.mem_cons_self
    unfold ipVerifyLoopM
    refine (hashBPM_safe E hL0 hR0).bind fun _ _ => (lift_safe _).bind fun _ _ =>
      (sliceTo_safe hg _).bind fun _ hg1 => (sliceFrom_safe hg _).bind fun _ hg2 => (foldM_safe E hg1 hg2 _ _).bind fun _ hg' =>
      (sliceTo_safe hh _).bind fun _ hh1 => (sliceFrom_safe hh _).bind fun _ hh2 => (foldM_safe E hh1 hh2 _ _).bind fun _ hh' => ?_
    exact (lift_safe _).bind fun _ _ => (newScalarMultM_safe E hL0 _).bind fun _ h1 => (multiplyM_safe E hP hP.rd h1.rd).bind fun _ _ =>
      (newScalarMultM_safe E hR0 _).bind fun _ h2 => (multiplyM_safe E hP hP.rd h2.rd).bind fun _ _ =>
      ipVerifyLoopM_safe hP _ (fun q hq => hL q (List.mem_cons_of_mem _ hq)) (fun q hq => hR q (List.mem_cons_of_mem _ hq)) hg' hh'

theorem ipVerifyM_safe {proof : IPProofM} (h : IPAccess n R W proof) : (ipVerifyM E proof).Safe n R W Ok := by
  have hP := h.P
  unfold ipVerifyM
  refine (ipVerifyLoopM_safe E hP _ h.Ls h.Rs h.Gg h.Hh).bind fun r hr => ?_
  obtain ⟨g, h'⟩ := r
  obtain ⟨hg, hh⟩ := hr
  exact (idx_safe hg 0).bind fun _ h0 => (idx_safe hh 0).bind fun _ h1 => (newScalarMultM_safe E h0 _).bind fun _ hr =>
    (newScalarMultM_safe E h1 _).bind fun _ h2 => (multiplyM_safe E hr hr.rd h2.rd).bind fun _ _ =>
    (newScalarMultM_safe E h.U _).bind fun _ h3 => (multiplyM_safe E hr hr.rd h3.rd).bind fun _ _ =>
    (negM_safe E hP hP.rd).bind fun _ _ => (multiplyM_safe E hP hP.rd hr.rd).bind fun _ _ => isZeroM_safe hP.rd

theorem check65M_safe {proof : BPProofM} (h : ProofAccess n R W proof) (x y z : Int) :
    (check65M E proof x y z).Safe n R W Ok :=
  (commitG1M_safe E _ _ h.Params.H).bind fun _ hl => (newScalarMultM_safe E h.V _).bind fun _ hr => (lift_safe _).bind fun _ _ =>
    new_safe.bind fun _ hd => (scalarBaseMultM_safe E hd _).bind fun _ _ => (multiplyM_safe E hr hr.rd hd.rd).bind fun _ _ =>
    (newScalarMultM_safe E h.T1 _).bind fun _ h1 => (newScalarMultM_safe E h.T2 _).bind fun _ h2 =>
    (multiplyM_safe E hr hr.rd h1.rd).bind fun _ _ => (multiplyM_safe E hr hr.rd h2.rd).bind fun _ _ =>
    (negM_safe E hl hl.rd).bind fun _ _ => (multiplyM_safe E hr hr.rd hl.rd).bind fun _ _ => isZeroM_safe hr.rd

theorem check67M_safe {proof : BPProofM} (h : ProofAccess n R W proof) {hprime : List Addr} (hh : AllRd n R W hprime)
    (x y z : Int) : (check67M E proof hprime x y z).Safe n R W Ok :=
  (newScalarMultM_safe E h.S _).bind fun _ hs => new_safe.bind fun _ ha => (addM_safe ha h.A hs.rd).bind fun _ _ =>
    (lift_safe _).bind fun _ _ => (vectorExpM_safe E h.Params.Gg _).bind fun _ hg => (lift_safe _).bind fun _ _ =>
    (lift_safe _).bind fun _ _ => (lift_safe _).bind fun _ _ => new_safe.bind fun _ hl => (addM_safe hl ha.rd hg.rd).bind fun _ _ =>
    (vectorExpM_safe E hh _).bind fun _ hx => (addM_safe hl hl.rd hx.rd).bind fun _ _ =>
    (newScalarMultM_safe E h.Params.H _).bind fun _ hr => (multiplyM_safe E hr hr.rd h.Commit).bind fun _ _ =>
    (negM_safe E hl hl.rd).bind fun _ _ => (addM_safe hr hr.rd hl.rd).bind fun _ _ => isZeroM_safe hr.rd

theorem bpVerifyM_safe {proof : BPProofM} (h : ProofAccess n R W proof) : (bpVerifyM E proof).Safe n R W Ok :=
  (hashBPM_safe E h.T1 h.T2).bind fun _ _ => (hashBPM_safe E h.A h.S).bind fun _ _ =>
    (updateGeneratorsM_safe E h.Params.Hh _ _).bind fun _ hh =>
    (check65M_safe E h _ _ _).bind fun _ _ => (check67M_safe E h hh _ _ _).bind fun _ _ =>
    (ipVerifyM_safe E h.IP).bind fun _ _ => .pure trivial

theorem runM_safe {params : BPParamsM} (hp : ParamsAccess n R W params) : ∀ (prog : List Stmt) {ps : List BPProofM},
    (∀ p ∈ ps, ProofAccess n R W p) → (runM E params prog ps).Safe n R W Ok
  | [], _, _ => .pure trivial
  | .prove rnd secret :: rest, ps, h => by
    unfold runM
    refine (proveM_safe E rnd secret hp).bind fun o ho => ?_
    refine (Prog.Safe.lift (Q := fun a => ProofAccess n R W a) fun a e => ?_).bind fun p hp' => runM_safe hp rest fun q hq => ?_
    · cases o with
      | none => cases e
      | some q => obtain rfl := Res.ok.inj e; exact ho _ rfl
    · rcases List.mem_append.1 hq with h1 | h1
      · exact h q h1
      · rw [List.mem_singleton.1 h1]; exact hp'
  | .copy i :: rest, ps, h => by
    unfold runM
    refine (Prog.Safe.lift (Q := fun a => ProofAccess n R W a) fun a e => ?_).bind fun p hp' => runM_safe hp rest fun q hq => ?_
    · unfold idx at e
      cases hl : ps[i]? with
      | none => rw [hl] at e; cases e
      | some b => rw [hl] at e; obtain rfl := Res.ok.inj e; exact h _ (List.mem_of_getElem? hl)
    · rcases List.mem_append.1 hq with h1 | h1
      · exact h q h1
      · rw [List.mem_singleton.1 h1]; exact hp'
  | .verify i :: rest, ps, h => by
    unfold runM
    refine (Prog.Safe.lift (Q := fun a => ProofAccess n R W a) fun a e => ?_).bind fun p hp' => ?_
    · unfold idx at e
      cases hl : ps[i]? with
      | none => rw [hl] at e; cases e
      | some b => rw [hl] at e; obtain rfl := Res.ok.inj e; exact h _ (List.mem_of_getElem? hl)
    · exact (bpVerifyM_safe E hp').bind fun _ _ => (runM_safe hp rest h).bind fun _ _ => .pure trivial

end Par

end

end Verif
