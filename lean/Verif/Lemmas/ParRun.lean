import Mathlib.Tactic.Common
import Verif.Model.Par

/-!
# The programs of `Model/Par.lean` run without interruption are the functions of `Model/Heap.lean`
-/

namespace Verif

variable {α β : Type}

theorem Prog.run_bind (p : Prog α) (f : α → Prog β) : (p >>= f).run = p.run >>= fun a => (f a).run := by
  change (p.bind f).run = _
  induction p with
  | ret a => rfl
  | panic => rfl
  | load a k ih =>
    funext s
    simp only [Prog.bind, Prog.run, ih]
    change _ = (Mem.load a s >>= fun r => (k r.1).run r.2) >>= fun r => (f r.1).run r.2
    cases Mem.load a s <;> rfl
  | new k ih =>
    funext s
    simp only [Prog.bind, Prog.run, ih]
    rfl
  | setX p v k ih =>
    funext s
    simp only [Prog.bind, Prog.run, ih]
    change _ = (Mem.setX p v s >>= fun r => k.run r.2) >>= fun r => (f r.1).run r.2
    cases Mem.setX p v s <;> rfl
  | setY p v k ih =>
    funext s
    simp only [Prog.bind, Prog.run, ih]
    change _ = (Mem.setY p v s >>= fun r => k.run r.2) >>= fun r => (f r.1).run r.2
    cases Mem.setY p v s <;> rfl

theorem Prog.run_bind_congr {p : Prog α} {f : α → Prog β} {m : Mem α} {g : α → Mem β} (h : p.run = m)
    (h' : ∀ a, (f a).run = g a) : (p >>= f).run = m >>= g := by
  rw [Prog.run_bind, h, funext h']

theorem Prog.run_ite {c : Prop} [Decidable c] {p q : Prog α} {m n : Mem α} (h : p.run = m) (h' : q.run = n) :
    (if c then p else q).run = if c then m else n := by
  split <;> assumption

theorem Prog.run_lift (r : Res α) : (Prog.lift r).run = Mem.lift r := by
  cases r <;> rfl

theorem Prog.run_pure (a : α) : (pure a : Prog α).run = pure a := rfl

theorem Prog.run_panic : (Prog.panic : Prog α).run = Mem.lift .panic := rfl

namespace Par

theorem load_run (a : Addr) : (load a).run = Mem.load a := by
  funext s
  change (Mem.load a s >>= fun r => Res.ok (r.1, r.2)) = _
  cases Mem.load a s <;> rfl

theorem new_run : new.run = Mem.new := rfl

theorem setX_run (p : Addr) (v : Option Int) : (setX p v).run = Mem.setX p v := by
  funext s
  change (Mem.setX p v s >>= fun r => Res.ok ((), r.2)) = _
  cases Mem.setX p v s <;> rfl

theorem setY_run (p : Addr) (v : Option Int) : (setY p v).run = Mem.setY p v := by
  funext s
  change (Mem.setY p v s >>= fun r => Res.ok ((), r.2)) = _
  cases Mem.setY p v s <;> rfl

/-- Goes through a program, using the lemmas of the list for its parts. -/
macro "run_by" "[" ts:term,* "]" : tactic => do
  let mut alts : Array (Lean.TSyntax `tactic) := #[]
  for t in ts.getElems do
    alts := alts.push (← `(tactic| exact $t))
  `(tactic| (repeat' first
    | exact load_run _ | exact new_run | exact setX_run _ _ | exact setY_run _ _ | exact Prog.run_lift _
    $[| $alts:tactic]*
    | refine Prog.run_bind_congr ?_ ?_ | refine Prog.run_ite ?_ ?_ | exact Prog.run_pure _ | exact Prog.run_panic
    | refine Prod.forall.2 fun _ _ => ?_ | intro _))

theorem setInfinityM_run (p : Addr) : (setInfinityM p).run = Verif.setInfinityM p := by
  unfold setInfinityM Verif.setInfinityM; run_by []

theorem copyM_run (p a : Addr) : (copyM p a).run = Verif.copyM p a := by
  unfold copyM Verif.copyM; run_by []

theorem writeM_run (p : Addr) (v : P256) : (writeM p v).run = Verif.writeM p v := by
  unfold writeM Verif.writeM; run_by []

theorem addM_run (p a b : Addr) : (addM p a b).run = Verif.addM p a b := by
  unfold addM Verif.addM; run_by [copyM_run _ _, writeM_run _ _]

variable (E : Ext)

theorem doubleM_run (p a : Addr) : (doubleM E p a).run = Verif.doubleM E p a := by
  unfold doubleM Verif.doubleM; run_by [setInfinityM_run _, writeM_run _ _]

theorem scalarMultM_run (p a : Addr) (n : Int) : (scalarMultM E p a n).run = Verif.scalarMultM E p a n := by
  unfold scalarMultM Verif.scalarMultM; run_by [setInfinityM_run _, writeM_run _ _]

theorem scalarBaseMultM_run (p : Addr) (n : Int) : (scalarBaseMultM E p n).run = Verif.scalarBaseMultM E p n := by
  unfold scalarBaseMultM Verif.scalarBaseMultM; run_by [setInfinityM_run _, writeM_run _ _]

theorem negM_run (p a : Addr) : (negM E p a).run = Verif.negM E p a := by
  unfold negM Verif.negM; run_by [setInfinityM_run _, scalarMultM_run _ _ _ _]

theorem multiplyM_run (p a b : Addr) : (multiplyM E p a b).run = Verif.multiplyM E p a b := by
  unfold multiplyM Verif.multiplyM; run_by [copyM_run _ _, writeM_run _ _]

theorem newScalarMultM_run (a : Addr) (n : Int) : (newScalarMultM E a n).run = Verif.newScalarMultM E a n := by
  unfold newScalarMultM Verif.newScalarMultM; run_by [scalarMultM_run _ _ _ _]

theorem newMultiplyM_run (a b : Addr) : (newMultiplyM E a b).run = Verif.newMultiplyM E a b := by
  unfold newMultiplyM Verif.newMultiplyM; run_by [multiplyM_run _ _ _ _]

theorem mapToGroupM_run (m : List UInt8) : (mapToGroupM E m).run = Verif.mapToGroupM E m := by
  unfold mapToGroupM Verif.mapToGroupM
  refine Prog.run_bind_congr (Prog.run_lift _) fun q => ?_
  cases q with
  | none => rfl
  | some q => run_by [writeM_run _ _]

theorem commitG1M_run (x r : Int) (h : Addr) : (commitG1M E x r h).run = Verif.commitG1M E x r h := by
  unfold commitG1M Verif.commitG1M; run_by [scalarBaseMultM_run _ _ _, newScalarMultM_run _ _ _, addM_run _ _ _]

theorem vectorExpLoopM_run (p : Addr) : ∀ (a : List Addr) (b : List Int),
    (vectorExpLoopM E p a b).run = Verif.vectorExpLoopM E p a b
  | q :: a, n :: b => by
    rw [vectorExpLoopM, Verif.vectorExpLoopM]
    run_by [newScalarMultM_run _ _ _, multiplyM_run _ _ _ _, vectorExpLoopM_run p a b]
  | [], _ => by simp only [vectorExpLoopM, Verif.vectorExpLoopM]; rfl
  | _ :: _, [] => by simp only [vectorExpLoopM, Verif.vectorExpLoopM]; rfl

theorem vectorExpM_run (a : List Addr) (b : List Int) : (vectorExpM E a b).run = Verif.vectorExpM E a b := by
  unfold vectorExpM Verif.vectorExpM; run_by [setInfinityM_run _, vectorExpLoopM_run _ _ _ _]

theorem vectorScalarExpM_run (b : Int) : ∀ a : List Addr, (vectorScalarExpM E b a).run = Verif.vectorScalarExpM E b a
  | [] => rfl
  | p :: a => by
    rw [vectorScalarExpM, Verif.vectorScalarExpM]
    run_by [newScalarMultM_run _ _ _, vectorScalarExpM_run b a]

theorem vectorECAddLoopM_run : ∀ a b : List Addr, (vectorECAddLoopM E a b).run = Verif.vectorECAddLoopM E a b
  | p :: a, q :: b => by
    rw [vectorECAddLoopM, Verif.vectorECAddLoopM]
    run_by [newMultiplyM_run _ _ _, vectorECAddLoopM_run a b]
  | [], _ => by simp only [vectorECAddLoopM, Verif.vectorECAddLoopM]; rfl
  | _ :: _, [] => by simp only [vectorECAddLoopM, Verif.vectorECAddLoopM]; rfl

theorem vectorECAddM_run (a b : List Addr) : (vectorECAddM E a b).run = Verif.vectorECAddM E a b := by
  unfold vectorECAddM Verif.vectorECAddM; run_by [vectorECAddLoopM_run _ _ _]

theorem hashBPM_run (a s : Addr) : (hashBPM E a s).run = Verif.hashBPM E a s := by
  unfold hashBPM Verif.hashBPM; run_by []

theorem isZeroM_run (a : Addr) : (isZeroM a).run = Verif.isZeroM a := by
  unfold isZeroM Verif.isZeroM; run_by []

theorem loadAllM_run : ∀ l : List Addr, (loadAllM l).run = Verif.loadAllM l
  | [] => rfl
  | a :: l => by
    rw [loadAllM, Verif.loadAllM]
    run_by [loadAllM_run l]

theorem hashIPM_run (g h : List Addr) (P : Addr) (c n : Int) : (hashIPM E g h P c n).run = Verif.hashIPM E g h P c n := by
  unfold hashIPM Verif.hashIPM; run_by [loadAllM_run _]

theorem commitInnerProductM_run (g h : List Addr) (a b : List Int) :
    (commitInnerProductM E g h a b).run = Verif.commitInnerProductM E g h a b := by
  unfold commitInnerProductM Verif.commitInnerProductM; run_by [vectorExpM_run _ _ _, newMultiplyM_run _ _ _]

theorem crossTermM_run (g : List Addr) (a : List Int) (h : List Addr) (b : List Int) (u : Addr) (c : Int) :
    (crossTermM E g a h b u c).run = Verif.crossTermM E g a h b u c := by
  unfold crossTermM Verif.crossTermM; run_by [vectorExpM_run _ _ _, multiplyM_run _ _ _ _, newScalarMultM_run _ _ _]

theorem foldM_run (a : List Addr) (x : Int) (b : List Addr) (y : Int) : (foldM E a x b y).run = Verif.foldM E a x b y := by
  unfold foldM Verif.foldM; run_by [vectorScalarExpM_run _ _ _, vectorECAddM_run _ _ _]

theorem computeBipM_run (params : IPParamsM) : ∀ (fuel : Nat) (a b : List Int) (g h : List Addr) (u P : Addr) (n : Nat)
    (Ls Rs : List Addr), (computeBipM E params fuel a b g h u P n Ls Rs).run =
      Verif.computeBipM E params fuel a b g h u P n Ls Rs
  | 0, _, _, _, _, _, _, _, _, _ => rfl
  | fuel + 1, a, b, g, h, u, P, n, Ls, Rs => by
    rw [computeBipM, Verif.computeBipM]
    run_by [crossTermM_run _ _ _ _ _ _ _, hashBPM_run _ _ _, foldM_run _ _ _ _ _, newScalarMultM_run _ _ _,
      multiplyM_run _ _ _ _, computeBipM_run params fuel _ _ _ _ _ _ _ _ _]

theorem proveInnerProductM_run (a b : List Int) (P : Addr) (params : IPParamsM) :
    (proveInnerProductM E a b P params).run = Verif.proveInnerProductM E a b P params := by
  unfold proveInnerProductM Verif.proveInnerProductM
  run_by [hashIPM_run _ _ _ _ _ _, newScalarMultM_run _ _ _, newMultiplyM_run _ _ _, computeBipM_run _ _ _ _ _ _ _ _ _ _ _ _]

theorem ipVerifyLoopM_run (P : Addr) : ∀ (Ls Rs g h : List Addr) (n : Int),
    (ipVerifyLoopM E P Ls Rs g h n).run = Verif.ipVerifyLoopM E P Ls Rs g h n
  | [], _, _, _, _ => by simp only [ipVerifyLoopM, Verif.ipVerifyLoopM]; rfl
  | _ :: _, [], _, _, _ => rfl
  | L :: Ls, R :: Rs, g, h, n => by
    rw [ipVerifyLoopM, Verif.ipVerifyLoopM]
    run_by [hashBPM_run _ _ _, foldM_run _ _ _ _ _, newScalarMultM_run _ _ _, multiplyM_run _ _ _ _,
      ipVerifyLoopM_run P Ls Rs _ _ _]

theorem ipVerifyM_run (proof : IPProofM) : (ipVerifyM E proof).run = Verif.ipVerifyM E proof := by
  unfold ipVerifyM Verif.ipVerifyM
  run_by [ipVerifyLoopM_run _ _ _ _ _ _ _, newScalarMultM_run _ _ _, multiplyM_run _ _ _ _, negM_run _ _ _, isZeroM_run _]

theorem commitVectorLoopM_run (aL aR : List Int) (g h : List Addr) (R : Addr) : ∀ fuel i : Nat,
    (commitVectorLoopM E aL aR g h R fuel i).run = Verif.commitVectorLoopM E aL aR g h R fuel i
  | 0, _ => rfl
  | fuel + 1, i => by
    rw [commitVectorLoopM, Verif.commitVectorLoopM]
    run_by [newScalarMultM_run _ _ _, multiplyM_run _ _ _ _, commitVectorLoopM_run aL aR g h R fuel _]

theorem commitVectorM_run (aL aR : List Int) (alpha : Int) (H : Addr) (g h : List Addr) (n : Int) :
    (commitVectorM E aL aR alpha H g h n).run = Verif.commitVectorM E aL aR alpha H g h n := by
  unfold commitVectorM Verif.commitVectorM; run_by [newScalarMultM_run _ _ _, commitVectorLoopM_run _ _ _ _ _ _ _ _]

theorem updateGeneratorsLoopM_run (Hh : List Addr) (yinv : Int) : ∀ (fuel i : Nat) (e : Int),
    (updateGeneratorsLoopM E Hh yinv fuel i e).run = Verif.updateGeneratorsLoopM E Hh yinv fuel i e
  | 0, _, _ => rfl
  | fuel + 1, i, e => by
    rw [updateGeneratorsLoopM, Verif.updateGeneratorsLoopM]
    run_by [newScalarMultM_run _ _ _, updateGeneratorsLoopM_run Hh yinv fuel _ _]

theorem updateGeneratorsM_run (Hh : List Addr) (y n : Int) :
    (updateGeneratorsM E Hh y n).run = Verif.updateGeneratorsM E Hh y n := by
  unfold updateGeneratorsM Verif.updateGeneratorsM; run_by [updateGeneratorsLoopM_run _ _ _ _ _ _]

theorem setupInnerProductM_run (H : Addr) (g h : List Addr) (c n : Int) :
    (setupInnerProductM E H g h c n).run = Verif.setupInnerProductM E H g h c n := by
  unfold setupInnerProductM Verif.setupInnerProductM; run_by [mapToGroupM_run _ _, setInfinityM_run _]

theorem proveM_run (rnd : BPRand) (secret : Int) (params : BPParamsM) :
    (proveM E rnd secret params).run = Verif.proveM E rnd secret params := by
  unfold proveM Verif.proveM
  run_by [commitG1M_run _ _ _ _, commitVectorM_run _ _ _ _ _ _ _ _, hashBPM_run _ _ _, updateGeneratorsM_run _ _ _ _,
    setupInnerProductM_run _ _ _ _ _ _]
  rename_i ipp
  cases ipp with
  | none => rfl
  | some ipp => run_by [commitInnerProductM_run _ _ _ _ _, proveInnerProductM_run _ _ _ _ _]

theorem check65M_run (proof : BPProofM) (x y z : Int) : (check65M E proof x y z).run = Verif.check65M E proof x y z := by
  unfold check65M Verif.check65M
  run_by [commitG1M_run _ _ _ _, newScalarMultM_run _ _ _, scalarBaseMultM_run _ _ _, multiplyM_run _ _ _ _, negM_run _ _ _,
    isZeroM_run _]

theorem check67M_run (proof : BPProofM) (hprime : List Addr) (x y z : Int) :
    (check67M E proof hprime x y z).run = Verif.check67M E proof hprime x y z := by
  unfold check67M Verif.check67M
  run_by [newScalarMultM_run _ _ _, addM_run _ _ _, vectorExpM_run _ _ _, multiplyM_run _ _ _ _, negM_run _ _ _, isZeroM_run _]

theorem bpVerifyM_run (proof : BPProofM) : (bpVerifyM E proof).run = Verif.bpVerifyM E proof := by
  unfold bpVerifyM Verif.bpVerifyM
  run_by [hashBPM_run _ _ _, updateGeneratorsM_run _ _ _ _, check65M_run _ _ _ _ _, check67M_run _ _ _ _ _ _, ipVerifyM_run _ _]

theorem runM_run (params : BPParamsM) : ∀ (prog : List Stmt) (ps : List BPProofM),
    (runM E params prog ps).run = Verif.runM E params prog ps
  | [], _ => rfl
  | .prove rnd secret :: rest, ps => by
    rw [runM, Verif.runM]
    run_by [proveM_run _ _ _ _, runM_run params rest _]
  | .copy i :: rest, ps => by
    rw [runM, Verif.runM]
    run_by [runM_run params rest _]
  | .verify i :: rest, ps => by
    rw [runM, Verif.runM]
    run_by [bpVerifyM_run _ _, runM_run params rest _]

end Par

end Verif
