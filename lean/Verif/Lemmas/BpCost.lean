import Verif.Model.BpCost

/-!
# Results of the logged functions
-/

namespace Verif

namespace Cost

variable {α β : Type}

theorem res_bind (m : Cost α) (f : α → Cost β) : (m >>= f).res = m.res >>= fun a => (f a).res := by
  show (Cost.bind m f).res = _
  unfold Cost.bind
  cases h : m.res <;> rfl

theorem res_pure (a : α) : (pure a : Cost α).res = .ok a := rfl
theorem res_lift (r : Res α) : (lift r).res = r := rfl
theorem res_emit (e : Ev) : (emit e).res = .ok () := rfl

theorem res_make (n : Int) : (Cost.make n).res = if n < 0 then .panic else .ok () := by
  unfold Cost.make
  split <;> rfl

theorem res_make_nat (n : Nat) : (Cost.make n).res = .ok () := by
  rw [res_make, if_neg (by omega)]

theorem res_deref (o : Option α) : (Cost.deref o).res = Res.ofOption o := rfl

/-- A computation that does not panic. -/
theorem res_bind_ok {m : Cost α} {a : α} (h : m.res = .ok a) (f : α → Cost β) : (m >>= f).res = (f a).res := by
  rw [res_bind, h]
  rfl

/-- Results of one step and of the rest. -/
theorem res_step {m : Cost α} {r : Res α} {f : α → Cost β} {g : α → Res β} (h : m.res = r) (hf : ∀ a, (f a).res = g a) :
    (m >>= f).res = r >>= g := by
  rw [res_bind, h]
  exact congrArg _ (funext hf)

end Cost

open Cost

namespace P256

theorem addC_res (a b : P256) : (a.addC b).res = .ok (a.add b) := by
  unfold addC add
  split
  · rfl
  · split <;> rfl

theorem scalarMultC_res (E : Ext) (a : P256) (n : Int) : (a.scalarMultC E n).res = .ok (a.scalarMult E n) := by
  unfold scalarMultC scalarMult
  split
  · rfl
  · split <;> rfl

theorem scalarBaseMultC_res (E : Ext) (n : Int) : (scalarBaseMultC E n).res = .ok (scalarBaseMult E n) := by
  unfold scalarBaseMultC scalarBaseMult
  split <;> rfl

theorem negC_res (E : Ext) (p a : P256) : (negC E p a).res = .ok (neg E p a) := by
  unfold negC neg
  split
  · rfl
  · exact scalarMultC_res ..

theorem multiplyC_res (E : Ext) (a b : P256) : (a.multiplyC E b).res = .ok (a.multiply E b) := by
  unfold multiplyC multiply
  split
  · rfl
  · split
    · rfl
    · split <;> rfl

end P256

open P256

theorem commitG1C_res (E : Ext) (x r : Int) (h : P256) : (commitG1C E x r h).res = .ok (commitG1 E x r h) := by
  simp only [commitG1C, res_bind, scalarBaseMultC_res, scalarMultC_res, addC_res, Res.ok_bind, commitG1]

theorem decomposeC_res (x u l : Int) : (decomposeC x u l).res = decompose x u l := by
  simp only [decomposeC, decompose, res_bind, res_make, res_lift]
  split <;> rfl

theorem computeARC_res (x : List Int) : (computeARC x).res = .ok ((computeAR x).getD []) := by
  simp only [computeARC, res_bind, res_make_nat, Res.ok_bind, res_pure]

theorem vectorCopyC_res (a n : Int) : (vectorCopyC a n).res = vectorCopy a n := by
  simp only [vectorCopyC, vectorCopy, res_bind, res_make, res_pure]
  split <;> rfl

theorem vectorConvertToBigC_res (a : List Int) (n : Int) : (vectorConvertToBigC a n).res = vectorConvertToBig a n := by
  simp only [vectorConvertToBigC, vectorConvertToBig, res_bind, res_make]
  by_cases h : n < 0
  · rw [if_pos h, if_pos (Or.inl h)]
    rfl
  · rw [if_neg h, Res.ok_bind]
    by_cases h' : (a.length : Int) < n
    · rw [if_pos h', if_pos (Or.inr h')]
      rfl
    · rw [if_neg h', if_neg (by tauto)]
      rfl

theorem vectorOpC_res (op : Int → Int → Int) (a b : List Int) : (vectorOpC op a b).res =
    .ok ((if a.length ≠ b.length then none else some (List.zipWith (fun x y => op x y % ORDER) a b) : Option (List Int)).getD []) := by
  unfold vectorOpC
  split
  · rfl
  · simp only [res_bind, res_make_nat, Res.ok_bind, res_pure, Option.getD_some]

theorem vectorAddC_res (a b : List Int) : (vectorOpC (· + ·) a b).res = .ok ((vectorAdd a b).getD []) := vectorOpC_res ..
theorem vectorSubC_res (a b : List Int) : (vectorOpC (· - ·) a b).res = .ok ((vectorSub a b).getD []) := vectorOpC_res ..
theorem vectorMulC_res (a b : List Int) : (vectorOpC (· * ·) a b).res = .ok ((vectorMul a b).getD []) := vectorOpC_res ..

theorem vectorScalarMulC_res (a : List Int) (b : Int) : (vectorScalarMulC a b).res = .ok (vectorScalarMul a b) := by
  simp only [vectorScalarMulC, res_bind, res_make_nat, Res.ok_bind, res_pure, vectorScalarMul]

theorem powerOfC_res (x n : Int) : (powerOfC x n).res = powerOf x n := by
  simp only [powerOfC, powerOf, res_bind, res_make, res_pure]
  split <;> rfl

theorem deltaC_res (n y z : Int) : (deltaC n y z).res = delta n y z := by
  simp only [deltaC, delta, res_bind, vectorCopyC_res, powerOfC_res, res_lift, res_pure]

theorem sampleC_res {s : List Int} {n : Int} (h : 0 ≤ n) : (sampleRandomVectorC s n).res = .ok s := by
  simp only [sampleRandomVectorC, res_bind, res_make, if_neg (by omega : ¬ n < 0), Res.ok_bind, res_pure]

theorem vectorExpLoopC_res (E : Ext) (a : List P256) : ∀ (b : List Int) (r : P256),
    (vectorExpLoopC E a b r).res = .ok (vectorExpLoop E a b r) := by
  induction a with
  | nil => intro b r; cases b <;> rfl
  | cons p a ih =>
    intro b r
    cases b with
    | nil => rfl
    | cons n b => simp only [vectorExpLoopC, res_bind, scalarMultC_res, multiplyC_res, Res.ok_bind, ih, vectorExpLoop]

theorem vectorExpC_res (E : Ext) (a : List P256) (b : List Int) : (vectorExpC E a b).res = .ok (vectorExp E a b) := by
  unfold vectorExpC vectorExp
  split
  · rfl
  · simp only [res_bind, vectorExpLoopC_res, Res.ok_bind, res_pure]

theorem vectorECAddLoopC_res (E : Ext) (a : List P256) : ∀ b : List P256,
    (vectorECAddLoopC E a b).res = .ok (List.zipWith (fun x y => x.multiply E y) a b) := by
  induction a with
  | nil => intro b; cases b <;> rfl
  | cons p a ih =>
    intro b
    cases b with
    | nil => rfl
    | cons n b => simp only [vectorECAddLoopC, res_bind, multiplyC_res, Res.ok_bind, ih, res_pure, List.zipWith_cons_cons]

theorem vectorECAddC_res (E : Ext) (a b : List P256) : (vectorECAddC E a b).res = .ok ((vectorECAdd E a b).getD []) := by
  unfold vectorECAddC vectorECAdd
  split
  · rfl
  · simp only [res_bind, res_make_nat, Res.ok_bind, vectorECAddLoopC_res, Option.getD_some]

theorem vectorScalarExpLoopC_res (E : Ext) (b : Int) (a : List P256) :
    (vectorScalarExpLoopC E b a).res = .ok (a.map fun p => p.scalarMult E b) := by
  induction a with
  | nil => rfl
  | cons p a ih => simp only [vectorScalarExpLoopC, res_bind, scalarMultC_res, Res.ok_bind, ih, res_pure, List.map_cons]

theorem vectorScalarExpC_res (E : Ext) (a : List P256) (b : Int) : (vectorScalarExpC E a b).res = .ok (vectorScalarExp E a b) := by
  simp only [vectorScalarExpC, res_bind, res_make_nat, Res.ok_bind, vectorScalarExpLoopC_res, vectorScalarExp]

theorem commitVectorLoopC_res (E : Ext) (aL aR : List Int) (g h : List P256) : ∀ (fuel i : Nat) (R : P256),
    (commitVectorLoopC E aL aR g h fuel i R).res = commitVectorLoop E aL aR g h fuel i R := by
  intro fuel
  induction fuel with
  | zero => intros; rfl
  | succ fuel ih =>
    intro i R
    simp only [commitVectorLoopC, commitVectorLoop, res_bind, res_lift, scalarMultC_res, multiplyC_res, Res.ok_bind, ih]

theorem commitVectorBigLoopC_res (E : Ext) (aL aR : List Int) (g h : List P256) : ∀ (fuel i : Nat) (R : P256),
    (commitVectorBigLoopC E aL aR g h fuel i R).res = commitVectorLoop E aL aR g h fuel i R := by
  intro fuel
  induction fuel with
  | zero => intros; rfl
  | succ fuel ih =>
    intro i R
    simp only [commitVectorBigLoopC, commitVectorLoop, res_bind, res_lift, scalarMultC_res, multiplyC_res, Res.ok_bind, ih]

theorem commitVectorC_res (E : Ext) (aL aR : List Int) (alpha : Int) (H : P256) (g h : List P256) (n : Int) :
    (commitVectorC E aL aR alpha H g h n).res = commitVector E aL aR alpha H g h n := by
  simp only [commitVectorC, commitVector, res_bind, scalarMultC_res, Res.ok_bind, commitVectorLoopC_res]

theorem commitVectorBigC_res (E : Ext) (aL aR : List Int) (alpha : Int) (H : P256) (g h : List P256) (n : Int) :
    (commitVectorBigC E aL aR alpha H g h n).res = commitVector E aL aR alpha H g h n := by
  simp only [commitVectorBigC, commitVector, res_bind, scalarMultC_res, Res.ok_bind, commitVectorBigLoopC_res]

theorem updateGeneratorsLoopC_res (E : Ext) (Hh : List P256) (yinv : Int) : ∀ (fuel i : Nat) (e : Int),
    (updateGeneratorsLoopC E Hh yinv fuel i e).res = updateGeneratorsLoop E Hh yinv fuel i e := by
  intro fuel
  induction fuel with
  | zero => intros; rfl
  | succ fuel ih =>
    intro i e
    simp only [updateGeneratorsLoopC, updateGeneratorsLoop, res_bind, res_lift, scalarMultC_res, Res.ok_bind, ih, res_pure]

theorem updateGeneratorsC_res (E : Ext) (Hh : List P256) (y n : Int) :
    (updateGeneratorsC E Hh y n).res = updateGenerators E Hh y n := by
  simp only [updateGeneratorsC, updateGenerators, res_bind, res_make]
  by_cases h : n < 0
  · rw [if_pos h, if_pos (show n ≤ 0 by omega)]
    rfl
  rw [if_neg h, Res.ok_bind]
  by_cases h0 : n = 0
  · rw [if_pos h0, if_pos (show n ≤ 0 by omega)]
    rfl
  rw [if_neg h0, if_neg (show ¬ n ≤ 0 by omega)]
  simp only [res_bind, res_lift]
  congr 1
  funext h0
  split
  · rfl
  · simp only [res_bind, res_lift, updateGeneratorsLoopC_res, res_pure]

theorem commitInnerProductC_res (E : Ext) (g h : List P256) (a b : List Int) :
    (commitInnerProductC E g h a b).res = commitInnerProduct E g h a b := by
  simp only [commitInnerProductC, commitInnerProduct, res_bind, vectorExpC_res, Res.ok_bind, res_deref, multiplyC_res]

theorem computeBipC_res (E : Ext) (params : IPParams) : ∀ (fuel : Nat) (a b : List Int) (g h : List P256) (u P : P256) (n : Nat)
    (Ls Rs : List P256),
    (computeBipC E params fuel a b g h u P n Ls Rs).res = computeBip E params fuel a b g h u P n Ls Rs := by
  intro fuel
  induction fuel with
  | zero => intros; rfl
  | succ fuel ih =>
    intro a b g h u P n Ls Rs
    rw [computeBipC, computeBip]
    by_cases h1 : n = 1
    · rw [if_pos h1, if_pos h1]
      simp only [res_bind, res_lift, res_pure]
    · rw [if_neg h1, if_neg h1]
      simp only [res_bind, res_lift, res_pure, res_deref, vectorExpC_res, multiplyC_res, scalarMultC_res, vectorScalarExpC_res,
        vectorECAddC_res, vectorScalarMulC_res, vectorAddC_res, Res.ok_bind, ih]

theorem proveInnerProductC_res (E : Ext) (a b : List Int) (P : P256) (params : IPParams) :
    (proveInnerProductC E a b P params).res = proveInnerProduct E a b P params := by
  unfold proveInnerProductC proveInnerProduct
  split
  · rfl
  · simp only [res_bind, res_lift, res_pure, multiplyC_res, scalarMultC_res, Res.ok_bind, computeBipC_res]

theorem ipVerifyLoopC_res (E : Ext) : ∀ (Ls Rs g h : List P256) (P : P256) (n : Int),
    (ipVerifyLoopC E Ls Rs g h P n).res = ipVerifyLoop E Ls Rs g h P n := by
  intro Ls
  induction Ls with
  | nil => intro Rs; cases Rs <;> intros <;> rfl
  | cons L Ls ih =>
    intro Rs g h P n
    cases Rs with
    | nil => rfl
    | cons R Rs =>
      simp only [ipVerifyLoopC, ipVerifyLoop, res_bind, res_lift, vectorScalarExpC_res, vectorECAddC_res, multiplyC_res, scalarMultC_res,
        Res.ok_bind, ih]

theorem ipVerifyC_res (E : Ext) (proof : IPProof) : (ipVerifyC E proof).res = ipVerify E proof := by
  simp only [ipVerifyC, ipVerify, res_bind, res_lift, ipVerifyLoopC_res, multiplyC_res, scalarMultC_res, negC_res, Res.ok_bind, res_pure]

theorem bpVerifyC_res (E : Ext) (proof : BPProof) : (bpVerifyC E proof).res = bpVerify E proof := by
  unfold bpVerifyC bpVerify
  by_cases h : proof.Params.N ≤ 0
  · simp only [res_bind, updateGeneratorsC_res]
    rw [updateGenerators, if_pos h]
    rfl
  have c1 : ∀ a, vectorCopy a proof.Params.N = .ok (List.replicate proof.Params.N.toNat a) := fun a => by
    rw [vectorCopy, if_neg (by omega)]
  have c2 : ∀ a, powerOf a proof.Params.N = .ok (powerOfLoop a proof.Params.N.toNat 1) := fun a => by
    rw [powerOf, if_neg (by omega)]
  simp only [res_bind, updateGeneratorsC_res, res_lift, res_pure, res_deref, commitG1C_res, scalarMultC_res, scalarBaseMultC_res, multiplyC_res,
    negC_res, addC_res, deltaC_res, vectorCopyC_res, powerOfC_res, c1, c2, vectorExpC_res, vectorMulC_res, vectorAddC_res,
    vectorScalarMulC_res, ipVerifyC_res, Res.ok_bind]

/-- `prove` with a sequence of binds. -/
theorem prove_binds (E : Ext) (rnd : BPRand) (secret : Int) (params : BPParams) : prove E rnd secret params = (do
    let V ← Res.ok (commitG1 E secret rnd.gamma params.H)
    let aL ← decompose secret 2 params.N
    let aR ← Res.ok ((computeAR aL).getD [])
    let A ← commitVector E aL aR rnd.alpha params.H params.Gg params.Hh params.N
    let sL ← Res.ok rnd.sL
    let sR ← Res.ok rnd.sR
    let S ← commitVector E sL sR rnd.rho params.H params.Gg params.Hh params.N
    let (y, z) := hashBP E A S
    let vz ← vectorCopy z params.N
    let vy ← powerOf y params.N
    let naL ← vectorConvertToBig aL params.N
    let aLmvz ← Res.ok ((vectorSub naL vz).getD [])
    let ynsR ← Res.ok ((vectorMul vy sR).getD [])
    let sp1 ← Res.ofOption (scalarProduct aLmvz ynsR)
    let naR ← vectorConvertToBig aR params.N
    let aRzn ← Res.ok ((vectorAdd naR vz).getD [])
    let ynaRzn ← Res.ok ((vectorMul vy aRzn).getD [])
    let p2n ← powerOf 2 params.N
    let zsquared := z * z
    let z22n ← Res.ok (vectorScalarMul p2n zsquared)
    let ynaRzn ← Res.ok ((vectorAdd ynaRzn z22n).getD [])
    let sp2 ← Res.ofOption (scalarProduct sL ynaRzn)
    let t1 := (sp1 + sp2) % ORDER
    let t2 ← Res.ofOption (scalarProduct sL ynsR)
    let t2 := t2 % ORDER
    let T1 ← Res.ok (commitG1 E t1 rnd.tau1 params.H)
    let T2 ← Res.ok (commitG1 E t2 rnd.tau2 params.H)
    let x := (hashBP E T1 T2).1
    let sLx ← Res.ok (vectorScalarMul sL x)
    let bl ← Res.ok ((vectorAdd aLmvz sLx).getD [])
    let sRx ← Res.ok (vectorScalarMul sR x)
    let aRzn ← Res.ok ((vectorAdd aRzn sRx).getD [])
    let ynaRzn ← Res.ok ((vectorMul vy aRzn).getD [])
    let br ← Res.ok ((vectorAdd ynaRzn z22n).getD [])
    let tprime ← Res.ofOption (scalarProduct bl br)
    let taux := rnd.tau2 * (x * x)
    let taux := taux + rnd.tau1 * x
    let taux := taux + z * z * rnd.gamma
    let taux := taux % ORDER
    let mu := rnd.rho * x
    let mu := mu + rnd.alpha
    let mu := mu % ORDER
    let hprime ← updateGenerators E params.Hh y params.N
    let ipp ← setupInnerProduct E params.H params.Gg hprime tprime params.N
    match ipp with
    | none => .ok none
    | some ipp => do
      let commit ← commitInnerProduct E params.Gg hprime bl br
      let proofip ← proveInnerProduct E bl br commit ipp
      let proofip ← Res.ofOption proofip
      .ok (some { V := V, A := A, S := S, T1 := T1, T2 := T2, Taux := taux, Mu := mu,
                  Tprime := tprime, IP := proofip, Commit := commit, Params := params, ParamsIP := ipp })) := rfl

theorem proveC_res (E : Ext) (rnd : BPRand) (secret : Int) (params : BPParams) :
    (proveC E rnd secret params).res = prove E rnd secret params := by
  rw [prove_binds, proveC]
  refine res_step (commitG1C_res ..) fun V => ?_
  by_cases h : params.N < 0
  · rw [res_bind, decomposeC_res, decompose, if_pos h, Res.panic_bind, Res.panic_bind]
  have h := not_lt.1 h
  refine res_step (decomposeC_res ..) fun aL => ?_
  refine res_step (computeARC_res ..) fun aR => ?_
  refine res_step (commitVectorC_res ..) fun A => ?_
  refine res_step (sampleC_res h) fun sL => ?_
  refine res_step (sampleC_res h) fun sR => ?_
  refine res_step (commitVectorBigC_res ..) fun S => ?_
  cases hashBP E A S with | mk y z => ?_
  refine res_step (vectorCopyC_res ..) fun vz => ?_
  refine res_step (powerOfC_res ..) fun vy => ?_
  refine res_step (vectorConvertToBigC_res ..) fun naL => ?_
  refine res_step (vectorSubC_res ..) fun aLmvz => ?_
  refine res_step (vectorMulC_res ..) fun ynsR => ?_
  refine res_step (res_lift ..) fun sp1 => ?_
  refine res_step (vectorConvertToBigC_res ..) fun naR => ?_
  refine res_step (vectorAddC_res ..) fun aRzn => ?_
  refine res_step (vectorMulC_res ..) fun ynaRzn => ?_
  refine res_step (powerOfC_res ..) fun p2n => ?_
  refine res_step (vectorScalarMulC_res ..) fun z22n => ?_
  refine res_step (vectorAddC_res ..) fun ynaRzn => ?_
  refine res_step (res_lift ..) fun sp2 => ?_
  refine res_step (res_lift ..) fun t2 => ?_
  refine res_step (commitG1C_res ..) fun T1 => ?_
  refine res_step (commitG1C_res ..) fun T2 => ?_
  refine res_step (vectorScalarMulC_res ..) fun sLx => ?_
  refine res_step (vectorAddC_res ..) fun bl => ?_
  refine res_step (vectorScalarMulC_res ..) fun sRx => ?_
  refine res_step (vectorAddC_res ..) fun aRzn => ?_
  refine res_step (vectorMulC_res ..) fun ynaRzn => ?_
  refine res_step (vectorAddC_res ..) fun br => ?_
  refine res_step (res_lift ..) fun tprime => ?_
  refine res_step (updateGeneratorsC_res ..) fun hprime => ?_
  refine res_step (res_lift ..) fun ipp => ?_
  cases ipp with
  | none => rfl
  | some ipp =>
    refine res_step (commitInnerProductC_res ..) fun commit => ?_
    refine res_step (proveInnerProductC_res ..) fun ip => ?_
    exact res_step (res_lift ..) fun _ => rfl

end Verif
