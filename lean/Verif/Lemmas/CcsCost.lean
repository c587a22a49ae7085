import Verif.Model.CcsCost

/-!
# Results and logs of the logged functions
-/

namespace Verif

namespace CLog

variable {α β : Type}

theorem res_bind (m : CLog α) (f : α → CLog β) : (m >>= f).res = m.res >>= fun a => (f a).res := by
  show (CLog.bind m f).res = _
  unfold CLog.bind
  cases h : m.res <;> rfl

theorem res_pure (a : α) : (pure a : CLog α).res = .ok a := rfl
theorem res_lift (r : Res α) : (lift r).res = r := rfl
theorem res_call (e : CcsEv) (a : α) : (call e a).res = .ok a := rfl

theorem log_ok {m : CLog α} {a : α} (h : m.res = .ok a) (f : α → CLog β) : (m >>= f).log = m.log ++ (f a).log := by
  show (CLog.bind m f).log = _
  unfold CLog.bind
  rw [h]

theorem log_panic {m : CLog α} (h : m.res = .panic) (f : α → CLog β) : (m >>= f).log = m.log := by
  show (CLog.bind m f).log = _
  unfold CLog.bind
  rw [h]

theorem log_pure (a : α) : (pure a : CLog α).log = [] := rfl
theorem log_call (e : CcsEv) (a : α) (f : α → CLog β) : (call e a >>= f).log = e :: (f a).log := rfl
theorem call_log (e : CcsEv) (a : α) : (call e a).log = [e] := rfl
theorem log_lift {r : Res α} {a : α} (h : r = .ok a) (f : α → CLog β) : (lift r >>= f).log = (f a).log := by
  rw [log_ok (m := lift r) h]
  rfl

end CLog

open CLog

theorem keygenC_res (rnd : Option Int) : (keygenC rnd).res = .ok (keygen rnd) := by
  cases rnd <;> rfl

theorem bbSignC_res (m sk : Int) : (bbSignC m sk).res = bbSign m sk := by
  simp only [bbSignC, bbSign, res_bind, res_lift, res_call, res_pure, Res.ok_bind]

theorem signLoopC_res (sk : Option Int) : ∀ (ms : List Int) (acc : List (Int × Option TwistPoint)),
    (signLoopC sk ms acc).res = signLoop sk ms acc
  | [], _ => rfl
  | m :: ms, acc => by
    simp only [signLoopC, signLoop, res_bind, res_lift, bbSignC_res, signLoopC_res sk ms]

theorem setupSetC_res (S : List Int) (rnd : Option Int) : (setupSetC S rnd).res = setupSet S rnd := by
  simp only [setupSetC, setupSet, res_bind, keygenC_res, signLoopC_res, res_call, res_pure, Res.ok_bind]

theorem setupULC_res (u l : Int) (rnd : Option Int) : (setupULC u l rnd).res = setupUL u l rnd := by
  simp only [setupULC, setupUL, res_bind, keygenC_res, signLoopC_res, res_call, res_pure, Res.ok_bind]

theorem commitC_res (x r : Int) (h : TwistPoint) : (commitC x r h).res = .ok (commit x r h) := rfl

theorem ccsAC_res (V : TwistPoint) (s t : Int) : (ccsAC V s t).res = .ok (ccsA V s t) := rfl

theorem proveSetC_res (sha : List UInt8 → List UInt8) (x r : Int) (p : ParamsSet) (m v s t : Int) :
    (proveSetC sha x r p m v s t).res = proveSet sha x r p m v s t := by
  unfold proveSetC proveSet
  cases p.signatures.lookup x with
  | none => rfl
  | some A => simp only [res_bind, res_lift, res_call, ccsAC_res, commitC_res, res_pure, Res.ok_bind]

theorem proveULLoopC_res (p : ParamsUL) (v s t : Nat → Int) : ∀ (ds : List Int) (i : Nat) (D : TwistPoint),
    (proveULLoopC p v s t i ds D).res = proveULLoop p v s t i ds D
  | [], _, _ => rfl
  | d :: ds, i, D => by
    unfold proveULLoopC proveULLoop
    cases p.signatures.lookup d with
    | none => rfl
    | some A =>
      simp only [res_bind, res_lift, res_call, ccsAC_res, Res.ok_bind, proveULLoopC_res p v s t ds]
      congr 1
      funext A
      congr 1
      funext o
      cases o <;> rfl

theorem proveULC_res (sha : List UInt8 → List UInt8) (x r : Int) (p : ParamsUL) (m : Int) (v s t : Nat → Int) :
    (proveULC sha x r p m v s t).res = proveUL sha x r p m v s t := by
  unfold proveULC proveUL
  simp only [res_bind, res_lift, res_call, Res.ok_bind, proveULLoopC_res]
  congr 1
  funext ds
  congr 1
  funext o
  cases o with
  | none => rfl
  | some o => simp only [res_bind, res_lift, commitC_res, res_pure, Res.ok_bind]

theorem verifySetC_res (pr : ProofSet) (p : ParamsSet) : (verifySetC pr p).res = verifySet pr p := by
  simp only [verifySetC, verifySet, res_bind, res_lift, res_call, res_pure, Res.ok_bind]
  rfl

theorem verifyULDC_res (u : Int) (zsig : List Int) : ∀ (n i : Nat) (D : TwistPoint),
    (verifyULDC u zsig n i D).res = verifyULD u zsig n i D
  | 0, _, _ => rfl
  | n + 1, i, D => by
    simp only [verifyULDC, verifyULD, res_bind, res_lift, res_call, Res.ok_bind, verifyULDC_res u zsig n]

theorem verifyULAC_res (pk : Option CurvePoint) (pr : ProofUL) : ∀ (n i : Nat) (r2 : Bool),
    (verifyULAC pk pr n i r2).res = verifyULA pk pr n i r2
  | 0, _, _ => rfl
  | n + 1, i, r2 => by
    simp only [verifyULAC, verifyULA, res_bind, res_lift, res_call, res_pure, Res.ok_bind, verifyULAC_res pk pr n]
    rfl

theorem verifyULC_res (pr : ProofUL) (p : ParamsUL) : (verifyULC pr p).res = verifyUL pr p := by
  simp only [verifyULC, verifyUL, res_bind, res_call, res_pure, Res.ok_bind, verifyULDC_res, verifyULAC_res]

theorem ccsSetupC_res (a b : Int) (rnd : Option Int) : (ccsSetupC a b rnd).res = ccsSetup a b rnd := by
  unfold ccsSetupC ccsSetup
  split
  · rfl
  · split
    · simp only [res_bind, setupULC_res, res_pure]
    · rfl

theorem ccsProveC_res (sha : List UInt8 → List UInt8) (p : Option CcsParams) (x r : Int) (w1 w2 : ULRandom) :
    (ccsProveC sha p x r w1 w2).res = ccsProve sha p x r w1 w2 := by
  simp only [ccsProveC, ccsProve, res_bind, res_lift, proveULC_res, res_pure]

theorem ccsVerifyC_res (pr : CcsProof) (p : Option CcsParams) : (ccsVerifyC pr p).res = ccsVerify pr p := by
  simp only [ccsVerifyC, ccsVerify, res_bind, res_lift, verifyULC_res, res_pure]

end Verif
