import Verif.Lemmas.CcsParRace
import Verif.Props.CcsRace

/-!
# C92: `ccs08` used by several goroutines
-/

namespace Verif

variable {g : CcsGlobals} {s : BigHeap}

/-! ### The code without interruption -/

/-- C92: the code for interleavings, run by one goroutine alone, is the code of C84: the functions of `ccs08` and `bbsignatures`. -/
theorem C92_alone (g : CcsGlobals) (sha : List UInt8 → List UInt8) :
    (∀ S rnd, (Inter.setupSetH g S rnd).alone = setupSetH g S rnd) ∧ (∀ u l rnd, (Inter.setupULH g u l rnd).alone = setupULH g u l rnd) ∧
    (∀ a b rnd, (Inter.ccsSetupH g a b rnd).alone = ccsSetupH g a b rnd) ∧
    (∀ x r p m v σ t, (Inter.proveSetH g sha x r p m v σ t).alone = proveSetH g sha x r p m v σ t) ∧
    (∀ x r p m v σ t, (Inter.proveULH g sha x r p m v σ t).alone = proveULH g sha x r p m v σ t) ∧
    (∀ p x r w1 w2, (Inter.ccsProveH g sha p x r w1 w2).alone = ccsProveH g sha p x r w1 w2) ∧
    (∀ q p, (Inter.verifySetH g q p).alone = verifySetH g q p) ∧ (∀ q p, (Inter.verifyULH g q p).alone = verifyULH g q p) ∧
    (∀ q p, (Inter.ccsVerifyH g q p).alone = ccsVerifyH g q p) ∧ (∀ rnd, (Inter.keygenH g rnd).alone = keygenH g rnd) ∧
    (∀ m sk, (Inter.bbSignH g m sk).alone = bbSignH g m sk) ∧ (∀ sig m y, (Inter.bbVerifyH g sig m y).alone = bbVerifyH g sig m y) ∧
    (∀ x r h, (Inter.commitH g x r h).alone = commitH g x r h) :=
  ⟨Inter.setupSetH_alone g, Inter.setupULH_alone g, Inter.ccsSetupH_alone g, Inter.proveSetH_alone g sha, Inter.proveULH_alone g sha,
    Inter.ccsProveH_alone g sha, Inter.verifySetH_alone g, Inter.verifyULH_alone g, Inter.ccsVerifyH_alone g, Inter.keygenH_alone g,
    Inter.bbSignH_alone g, Inter.bbVerifyH_alone g, Inter.commitH_alone g⟩

/-- C92: so for the exported operations of `bn256`. -/
theorem C92_alone_bn256 (g : BnGlobals) :
    (∀ a b, (Inter.pairH g a b).alone = pairH g a b) ∧ (∀ a b, (Inter.pairingCheckH g a b).alone = pairingCheckH g a b) ∧
    (∀ e a k, (Inter.G1H.scalarMult e a k).alone = G1H.scalarMult e a k) ∧ (∀ e a b, (Inter.G1H.add e a b).alone = G1H.add e a b) ∧
    (∀ e a, (Inter.G1H.neg e a).alone = G1H.neg e a) ∧ (∀ n, (Inter.G1H.marshal n).alone = G1H.marshal n) ∧
    (∀ e m, (Inter.G1H.unmarshal e m).alone = G1H.unmarshal e m) ∧
    (∀ e a k, (Inter.G2H.scalarMult e a k).alone = G2H.scalarMult e a k) ∧ (∀ e a b, (Inter.G2H.add e a b).alone = G2H.add e a b) ∧
    (∀ e a, (Inter.G2H.neg e a).alone = G2H.neg e a) ∧ (∀ n, (Inter.G2H.marshal n).alone = G2H.marshal n) ∧
    (∀ b e m, (Inter.G2H.unmarshal b e m).alone = G2H.unmarshal b e m) ∧
    (∀ e a k, (Inter.GTH.scalarMult e a k).alone = GTH.scalarMult e a k) ∧ (∀ e a b, (Inter.GTH.add e a b).alone = GTH.add e a b) ∧
    (∀ e a, (Inter.GTH.invert e a).alone = GTH.invert e a) ∧ (∀ e a k, (Inter.GTH.exp e a k).alone = GTH.exp e a k) ∧
    (∀ n, (Inter.GTH.marshal n).alone = GTH.marshal n) ∧ (∀ e m, (Inter.GTH.unmarshal e m).alone = GTH.unmarshal e m) :=
  ⟨Inter.pairH_alone g, Inter.pairingCheckH_alone g, Inter.G1H.scalarMult_alone, Inter.G1H.add_alone, Inter.G1H.neg_alone,
    Inter.G1H.marshal_alone, Inter.G1H.unmarshal_alone, Inter.G2H.scalarMult_alone, Inter.G2H.add_alone, Inter.G2H.neg_alone,
    Inter.G2H.marshal_alone, Inter.G2H.unmarshal_alone, Inter.GTH.scalarMult_alone, Inter.GTH.add_alone, Inter.GTH.invert_alone,
    Inter.GTH.exp_alone, Inter.GTH.marshal_alone, Inter.GTH.unmarshal_alone⟩

/-- C92: and for those operations of the fields and of `G1` which the others do not use. -/
theorem C92_alone_rest :
    (∀ e a b, (Inter.Gf12.add e a b).alone = Gf12.add e a b) ∧ (∀ e a b, (Inter.Gf12.sub e a b).alone = Gf12.sub e a b) ∧
    (∀ e a, (Inter.Gf12.neg e a).alone = Gf12.neg e a) ∧ (∀ e, (Inter.Gf12.setZero e).alone = Gf12.setZero e) ∧
    (∀ c a k, (Inter.Gf2.exp c a k).alone = Gf2.exp c a k) ∧ Inter.G1H.setInfinity.alone = G1H.setInfinity :=
  ⟨Inter.Gf12.add_alone, Inter.Gf12.sub_alone, Inter.Gf12.neg_alone, Inter.Gf12.setZero_alone, Inter.Gf2.exp_alone,
    Inter.G1H.setInfinity_alone⟩

/-! ### What is read and written -/

/-- C92: the functions which make parameters, keys, signatures, commitments and proofs write only to objects they have made
themselves, and read only these, the package variables and their arguments. -/
theorem C92_writes_nothing (n : Nat) (g : CcsGlobals) (sha : List UInt8 → List UInt8) :
    (∀ S rnd, (Inter.setupSetH g S rnd).prog.Safe ⟨n, (· ∈ g.cells), fun _ => False⟩ fun _ => True) ∧
    (∀ u l rnd, (Inter.setupULH g u l rnd).prog.Safe ⟨n, (· ∈ g.cells), fun _ => False⟩ fun _ => True) ∧
    (∀ a b rnd, (Inter.ccsSetupH g a b rnd).prog.Safe ⟨n, (· ∈ g.cells), fun _ => False⟩ fun _ => True) ∧
    (∀ x r p m v σ t, (Inter.proveSetH g sha x r p m v σ t).prog.Safe ⟨n, (· ∈ g.cells ++ HeapObj.cells p), fun _ => False⟩
      fun _ => True) ∧
    (∀ x r p m v σ t, (Inter.proveULH g sha x r p m v σ t).prog.Safe ⟨n, (· ∈ g.cells ++ HeapObj.cells p), fun _ => False⟩
      fun _ => True) ∧
    (∀ p x r w1 w2, (Inter.ccsProveH g sha p x r w1 w2).prog.Safe ⟨n, (· ∈ g.cells ++ HeapObj.cells p), fun _ => False⟩
      fun _ => True) ∧
    (∀ rnd, (Inter.keygenH g rnd).prog.Safe ⟨n, (· ∈ g.cells), fun _ => False⟩ fun _ => True) ∧
    (∀ m sk, (Inter.bbSignH g m sk).prog.Safe ⟨n, (· ∈ g.cells), fun _ => False⟩ fun _ => True) ∧
    (∀ sig m y, (Inter.bbVerifyH g sig m y).prog.Safe ⟨n, (· ∈ g.cells ++ (HeapObj.cells sig ++ HeapObj.cells y)), fun _ => False⟩
      fun _ => True) ∧
    ∀ x r h, (Inter.commitH g x r h).prog.Safe ⟨n, (· ∈ g.cells ++ HeapObj.cells h), fun _ => False⟩ fun _ => True := by
  have g0 : IsRd ⟨n, (· ∈ g.cells), fun _ => False⟩ g := isRd_globals fun _ h => h
  have g1 : ∀ l, IsRd ⟨n, (· ∈ g.cells ++ l), fun _ => False⟩ g := fun l => isRd_globals fun _ h => List.mem_append_left _ h
  refine ⟨fun S rnd => BigP.prog_safe TrC.out, fun u l rnd => BigP.prog_safe TrC.out, fun a b rnd => BigP.prog_safe TrC.out,
    fun x r p m v σ t => ?_, fun x r p m v σ t => ?_, fun p x r w1 w2 => ?_, fun rnd => BigP.prog_safe TrC.out,
    fun m sk => BigP.prog_safe TrC.out, fun sig m y => ?_, fun x r h => ?_⟩
  · have hp : IsRd ⟨n, (· ∈ g.cells ++ HeapObj.cells p), fun _ => False⟩ p := isRd_cells fun _ h => List.mem_append_right _ h
    exact BigP.prog_safe TrC.out
  · have hp : IsRd ⟨n, (· ∈ g.cells ++ HeapObj.cells p), fun _ => False⟩ p := isRd_cells fun _ h => List.mem_append_right _ h
    exact BigP.prog_safe TrC.out
  · have hp : IsRd ⟨n, (· ∈ g.cells ++ HeapObj.cells p), fun _ => False⟩ p := isRd_cells fun _ h => List.mem_append_right _ h
    exact BigP.prog_safe TrC.out
  · have hs : IsRd ⟨n, (· ∈ g.cells ++ (HeapObj.cells sig ++ HeapObj.cells y)), fun _ => False⟩ sig :=
      isRd_cells fun _ h => List.mem_append_right _ (List.mem_append_left _ h)
    have hy : IsRd ⟨n, (· ∈ g.cells ++ (HeapObj.cells sig ++ HeapObj.cells y)), fun _ => False⟩ y :=
      isRd_cells fun _ h => List.mem_append_right _ (List.mem_append_right _ h)
    exact BigP.prog_safe TrC.out
  · have hh : IsRd ⟨n, (· ∈ g.cells ++ HeapObj.cells h), fun _ => False⟩ h := isRd_cells fun _ h => List.mem_append_right _ h
    exact BigP.prog_safe TrC.out

/-- C92: the verifiers write only to objects they have made and to those of `D` and `a` of the proof (in `Marshal`). -/
theorem C92_writes_proof (n : Nat) (g : CcsGlobals) :
    (∀ q p, (Inter.verifySetH g q p).prog.Safe ⟨n, (· ∈ g.cells ++ (HeapObj.cells p ++ HeapObj.cells q)),
      (· ∈ HeapObj.cells q.D ++ HeapObj.cells q.a)⟩ fun _ => True) ∧
    (∀ q p, (Inter.verifyULH g q p).prog.Safe ⟨n, (· ∈ g.cells ++ (HeapObj.cells p ++ HeapObj.cells q)), (· ∈ q.written)⟩
      fun _ => True) ∧
    ∀ q p, (Inter.ccsVerifyH g q p).prog.Safe ⟨n, (· ∈ g.cells ++ (HeapObj.cells p ++ HeapObj.cells q)), (· ∈ q.written)⟩
      fun _ => True :=
  ⟨fun _ _ => BigP.prog_safe (Inter.verifySetH_tr' (fun _ h => List.mem_append_left _ h)
      (fun _ h => List.mem_append_right _ (List.mem_append_left _ h)) (fun _ h => List.mem_append_right _ (List.mem_append_right _ h))
      fun _ h => h),
    fun _ _ => BigP.prog_safe (Inter.verifyULH_tr' (fun _ h => List.mem_append_left _ h)
      (fun _ h => List.mem_append_right _ (List.mem_append_left _ h)) (fun _ h => List.mem_append_right _ (List.mem_append_right _ h))
      fun _ h => h),
    fun _ _ => BigP.prog_safe (Inter.ccsVerifyH_tr' (fun _ h => List.mem_append_left _ h)
      (fun _ h => List.mem_append_right _ (List.mem_append_left _ h)) (fun _ h => List.mem_append_right _ (List.mem_append_right _ h))
      fun _ h => h)⟩

/-- C92: the exported operations of `bn256` write only to objects they have made and to the receiver; `Exp` writes to its argument
instead of the receiver, and `Marshal`, and `IsZero` and `IsOne` of GT, write to the element they look at. -/
theorem C92_writes_bn256 (n : Nat) (g : BnGlobals) :
    (∀ a b, (Inter.pairH g a b).prog.Safe ⟨n, (· ∈ g.cells ++ HeapObj.cells a ++ HeapObj.cells b), fun _ => False⟩ fun _ => True) ∧
    (∀ a b, (Inter.pairingCheckH g a b).prog.Safe ⟨n, (· ∈ g.cells ++ HeapObj.cells a ++ HeapObj.cells b), fun _ => False⟩ fun _ => True) ∧
    (∀ e a k, (Inter.G1H.scalarMult e a k).prog.Safe ⟨n, (· ∈ HeapObj.cells a), (· ∈ HeapObj.cells e)⟩ fun _ => True) ∧
    (∀ γ e k, (Inter.G1H.scalarBaseMult γ e k).prog.Safe ⟨n, (· ∈ HeapObj.cells γ), (· ∈ HeapObj.cells e)⟩ fun _ => True) ∧
    (∀ e a b, (Inter.G1H.add e a b).prog.Safe ⟨n, (· ∈ HeapObj.cells a ++ HeapObj.cells b), (· ∈ HeapObj.cells e)⟩ fun _ => True) ∧
    (∀ e a, (Inter.G1H.neg e a).prog.Safe ⟨n, (· ∈ HeapObj.cells a), (· ∈ HeapObj.cells e)⟩ fun _ => True) ∧
    (∀ a, (Inter.G1H.isZero a).prog.Safe ⟨n, (· ∈ HeapObj.cells a), fun _ => False⟩ fun _ => True) ∧
    (∀ a, (Inter.G1H.marshal a).prog.Safe ⟨n, fun _ => False, (· ∈ HeapObj.cells a)⟩ fun _ => True) ∧
    (∀ e a k, (Inter.G2H.scalarMult e a k).prog.Safe ⟨n, (· ∈ HeapObj.cells a), (· ∈ HeapObj.cells e)⟩ fun _ => True) ∧
    (∀ γ e k, (Inter.G2H.scalarBaseMult γ e k).prog.Safe ⟨n, (· ∈ HeapObj.cells γ), (· ∈ HeapObj.cells e)⟩ fun _ => True) ∧
    (∀ e a b, (Inter.G2H.add e a b).prog.Safe ⟨n, (· ∈ HeapObj.cells a ++ HeapObj.cells b), (· ∈ HeapObj.cells e)⟩ fun _ => True) ∧
    (∀ e a, (Inter.G2H.neg e a).prog.Safe ⟨n, (· ∈ HeapObj.cells a), (· ∈ HeapObj.cells e)⟩ fun _ => True) ∧
    (∀ a, (Inter.G2H.isZero a).prog.Safe ⟨n, (· ∈ HeapObj.cells a), fun _ => False⟩ fun _ => True) ∧
    (∀ a, (Inter.G2H.marshal a).prog.Safe ⟨n, fun _ => False, (· ∈ HeapObj.cells a)⟩ fun _ => True) ∧
    (∀ a, (Inter.G1H.setZero a).prog.Safe ⟨n, fun _ => False, (· ∈ HeapObj.cells a)⟩ fun _ => True) ∧
    (∀ e m, (Inter.G1H.unmarshal e m).prog.Safe ⟨n, fun _ => False, (· ∈ HeapObj.cells e)⟩ fun _ => True) ∧
    (∀ β e m, (Inter.G2H.unmarshal β e m).prog.Safe ⟨n, (· ∈ HeapObj.cells β), (· ∈ HeapObj.cells e)⟩ fun _ => True) ∧
    (∀ e a k, (Inter.GTH.scalarMult e a k).prog.Safe ⟨n, (· ∈ HeapObj.cells a), (· ∈ HeapObj.cells e)⟩ fun _ => True) ∧
    (∀ e a b, (Inter.GTH.add e a b).prog.Safe ⟨n, (· ∈ HeapObj.cells a ++ HeapObj.cells b), (· ∈ HeapObj.cells e)⟩ fun _ => True) ∧
    (∀ e a, (Inter.GTH.invert e a).prog.Safe ⟨n, (· ∈ HeapObj.cells a), (· ∈ HeapObj.cells e)⟩ fun _ => True) ∧
    (∀ e a, (Inter.GTH.neg e a).prog.Safe ⟨n, (· ∈ HeapObj.cells a), (· ∈ HeapObj.cells e)⟩ fun _ => True) ∧
    (∀ e a k, (Inter.GTH.exp e a k).prog.Safe ⟨n, (· ∈ HeapObj.cells e), (· ∈ HeapObj.cells a)⟩ fun _ => True) ∧
    (∀ a, (Inter.GTH.isZero a).prog.Safe ⟨n, fun _ => False, (· ∈ HeapObj.cells a)⟩ fun _ => True) ∧
    (∀ a, (Inter.GTH.isOne a).prog.Safe ⟨n, fun _ => False, (· ∈ HeapObj.cells a)⟩ fun _ => True) ∧
    (∀ a, (Inter.GTH.marshal a).prog.Safe ⟨n, fun _ => False, (· ∈ HeapObj.cells a)⟩ fun _ => True) ∧
    (∀ e m, (Inter.GTH.unmarshal e m).prog.Safe ⟨n, fun _ => False, (· ∈ HeapObj.cells e)⟩ fun _ => True) :=
  ⟨fun a b => by
      have : IsRd ⟨n, (· ∈ g.cells ++ HeapObj.cells a ++ HeapObj.cells b), fun _ => False⟩ a := isRd_cells fun _ h => by simp only [List.mem_append, h, or_true, true_or]
      have : IsRd ⟨n, (· ∈ g.cells ++ HeapObj.cells a ++ HeapObj.cells b), fun _ => False⟩ b := isRd_cells fun _ h => by simp only [List.mem_append, h, or_true, true_or]
      have : IsRd ⟨n, (· ∈ g.cells ++ HeapObj.cells a ++ HeapObj.cells b), fun _ => False⟩ g := isRd_bn fun _ h => by simp only [List.mem_append, h, or_true, true_or]
      exact BigP.prog_safe TrC.out,
    fun a b => by
      have : IsRd ⟨n, (· ∈ g.cells ++ HeapObj.cells a ++ HeapObj.cells b), fun _ => False⟩ a := isRd_cells fun _ h => by simp only [List.mem_append, h, or_true, true_or]
      have : IsRd ⟨n, (· ∈ g.cells ++ HeapObj.cells a ++ HeapObj.cells b), fun _ => False⟩ b := isRd_cells fun _ h => by simp only [List.mem_append, h, or_true, true_or]
      have : IsRd ⟨n, (· ∈ g.cells ++ HeapObj.cells a ++ HeapObj.cells b), fun _ => False⟩ g := isRd_bn fun _ h => by simp only [List.mem_append, h, or_true, true_or]
      exact BigP.prog_safe TrC.out,
    fun e a k => by
      have : IsRd ⟨n, (· ∈ HeapObj.cells a), (· ∈ HeapObj.cells e)⟩ a := isRd_cells fun _ h => by simp only [List.mem_append, h, or_true, true_or]
      have : IsWr ⟨n, (· ∈ HeapObj.cells a), (· ∈ HeapObj.cells e)⟩ e := isWr_cells fun _ h => h
      exact BigP.prog_safe TrC.out,
    fun γ e k => by
      have : IsRd ⟨n, (· ∈ HeapObj.cells γ), (· ∈ HeapObj.cells e)⟩ γ := isRd_cells fun _ h => by simp only [List.mem_append, h, or_true, true_or]
      have : IsWr ⟨n, (· ∈ HeapObj.cells γ), (· ∈ HeapObj.cells e)⟩ e := isWr_cells fun _ h => h
      exact BigP.prog_safe TrC.out,
    fun e a b => by
      have : IsRd ⟨n, (· ∈ HeapObj.cells a ++ HeapObj.cells b), (· ∈ HeapObj.cells e)⟩ a := isRd_cells fun _ h => by simp only [List.mem_append, h, or_true, true_or]
      have : IsRd ⟨n, (· ∈ HeapObj.cells a ++ HeapObj.cells b), (· ∈ HeapObj.cells e)⟩ b := isRd_cells fun _ h => by simp only [List.mem_append, h, or_true, true_or]
      have : IsWr ⟨n, (· ∈ HeapObj.cells a ++ HeapObj.cells b), (· ∈ HeapObj.cells e)⟩ e := isWr_cells fun _ h => h
      exact BigP.prog_safe TrC.out,
    fun e a => by
      have : IsRd ⟨n, (· ∈ HeapObj.cells a), (· ∈ HeapObj.cells e)⟩ a := isRd_cells fun _ h => by simp only [List.mem_append, h, or_true, true_or]
      have : IsWr ⟨n, (· ∈ HeapObj.cells a), (· ∈ HeapObj.cells e)⟩ e := isWr_cells fun _ h => h
      exact BigP.prog_safe TrC.out,
    fun a => by
      have : IsRd ⟨n, (· ∈ HeapObj.cells a), fun _ => False⟩ a := isRd_cells fun _ h => by simp only [List.mem_append, h, or_true, true_or]
      exact BigP.prog_safe TrC.out,
    fun a => by
      have : IsWr ⟨n, fun _ => False, (· ∈ HeapObj.cells a)⟩ a := isWr_cells fun _ h => h
      exact BigP.prog_safe TrC.out,
    fun e a k => by
      have : IsRd ⟨n, (· ∈ HeapObj.cells a), (· ∈ HeapObj.cells e)⟩ a := isRd_cells fun _ h => by simp only [List.mem_append, h, or_true, true_or]
      have : IsWr ⟨n, (· ∈ HeapObj.cells a), (· ∈ HeapObj.cells e)⟩ e := isWr_cells fun _ h => h
      exact BigP.prog_safe TrC.out,
    fun γ e k => by
      have : IsRd ⟨n, (· ∈ HeapObj.cells γ), (· ∈ HeapObj.cells e)⟩ γ := isRd_cells fun _ h => by simp only [List.mem_append, h, or_true, true_or]
      have : IsWr ⟨n, (· ∈ HeapObj.cells γ), (· ∈ HeapObj.cells e)⟩ e := isWr_cells fun _ h => h
      exact BigP.prog_safe TrC.out,
    fun e a b => by
      have : IsRd ⟨n, (· ∈ HeapObj.cells a ++ HeapObj.cells b), (· ∈ HeapObj.cells e)⟩ a := isRd_cells fun _ h => by simp only [List.mem_append, h, or_true, true_or]
      have : IsRd ⟨n, (· ∈ HeapObj.cells a ++ HeapObj.cells b), (· ∈ HeapObj.cells e)⟩ b := isRd_cells fun _ h => by simp only [List.mem_append, h, or_true, true_or]
      have : IsWr ⟨n, (· ∈ HeapObj.cells a ++ HeapObj.cells b), (· ∈ HeapObj.cells e)⟩ e := isWr_cells fun _ h => h
      exact BigP.prog_safe TrC.out,
    fun e a => by
      have : IsRd ⟨n, (· ∈ HeapObj.cells a), (· ∈ HeapObj.cells e)⟩ a := isRd_cells fun _ h => by simp only [List.mem_append, h, or_true, true_or]
      have : IsWr ⟨n, (· ∈ HeapObj.cells a), (· ∈ HeapObj.cells e)⟩ e := isWr_cells fun _ h => h
      exact BigP.prog_safe TrC.out,
    fun a => by
      have : IsRd ⟨n, (· ∈ HeapObj.cells a), fun _ => False⟩ a := isRd_cells fun _ h => by simp only [List.mem_append, h, or_true, true_or]
      exact BigP.prog_safe TrC.out,
    fun a => by
      have : IsWr ⟨n, fun _ => False, (· ∈ HeapObj.cells a)⟩ a := isWr_cells fun _ h => h
      exact BigP.prog_safe TrC.out,
    fun a => by
      have : IsWr ⟨n, fun _ => False, (· ∈ HeapObj.cells a)⟩ a := isWr_cells fun _ h => h
      exact BigP.prog_safe TrC.out,
    fun e m => by
      have : IsWr ⟨n, fun _ => False, (· ∈ HeapObj.cells e)⟩ e := isWr_cells fun _ h => h
      exact BigP.prog_safe TrC.out,
    fun β e m => by
      have : IsRd ⟨n, (· ∈ HeapObj.cells β), (· ∈ HeapObj.cells e)⟩ β := isRd_cells fun _ h => by simp only [List.mem_append, h, or_true, true_or]
      have : IsWr ⟨n, (· ∈ HeapObj.cells β), (· ∈ HeapObj.cells e)⟩ e := isWr_cells fun _ h => h
      exact BigP.prog_safe TrC.out,
    fun e a k => by
      have : IsRd ⟨n, (· ∈ HeapObj.cells a), (· ∈ HeapObj.cells e)⟩ a := isRd_cells fun _ h => by simp only [List.mem_append, h, or_true, true_or]
      have : IsWr ⟨n, (· ∈ HeapObj.cells a), (· ∈ HeapObj.cells e)⟩ e := isWr_cells fun _ h => h
      exact BigP.prog_safe TrC.out,
    fun e a b => by
      have : IsRd ⟨n, (· ∈ HeapObj.cells a ++ HeapObj.cells b), (· ∈ HeapObj.cells e)⟩ a := isRd_cells fun _ h => by simp only [List.mem_append, h, or_true, true_or]
      have : IsRd ⟨n, (· ∈ HeapObj.cells a ++ HeapObj.cells b), (· ∈ HeapObj.cells e)⟩ b := isRd_cells fun _ h => by simp only [List.mem_append, h, or_true, true_or]
      have : IsWr ⟨n, (· ∈ HeapObj.cells a ++ HeapObj.cells b), (· ∈ HeapObj.cells e)⟩ e := isWr_cells fun _ h => h
      exact BigP.prog_safe TrC.out,
    fun e a => by
      have : IsRd ⟨n, (· ∈ HeapObj.cells a), (· ∈ HeapObj.cells e)⟩ a := isRd_cells fun _ h => by simp only [List.mem_append, h, or_true, true_or]
      have : IsWr ⟨n, (· ∈ HeapObj.cells a), (· ∈ HeapObj.cells e)⟩ e := isWr_cells fun _ h => h
      exact BigP.prog_safe TrC.out,
    fun e a => by
      have : IsRd ⟨n, (· ∈ HeapObj.cells a), (· ∈ HeapObj.cells e)⟩ a := isRd_cells fun _ h => by simp only [List.mem_append, h, or_true, true_or]
      have : IsWr ⟨n, (· ∈ HeapObj.cells a), (· ∈ HeapObj.cells e)⟩ e := isWr_cells fun _ h => h
      exact BigP.prog_safe TrC.out,
    fun e a k => by
      have : IsRd ⟨n, (· ∈ HeapObj.cells e), (· ∈ HeapObj.cells a)⟩ e := isRd_cells fun _ h => by simp only [List.mem_append, h, or_true, true_or]
      have : IsWr ⟨n, (· ∈ HeapObj.cells e), (· ∈ HeapObj.cells a)⟩ a := isWr_cells fun _ h => h
      exact BigP.prog_safe TrC.out,
    fun a => by
      have : IsWr ⟨n, fun _ => False, (· ∈ HeapObj.cells a)⟩ a := isWr_cells fun _ h => h
      exact BigP.prog_safe TrC.out,
    fun a => by
      have : IsWr ⟨n, fun _ => False, (· ∈ HeapObj.cells a)⟩ a := isWr_cells fun _ h => h
      exact BigP.prog_safe TrC.out,
    fun a => by
      have : IsWr ⟨n, fun _ => False, (· ∈ HeapObj.cells a)⟩ a := isWr_cells fun _ h => h
      exact BigP.prog_safe TrC.out,
    fun e m => by
      have : IsWr ⟨n, fun _ => False, (· ∈ HeapObj.cells e)⟩ e := isWr_cells fun _ h => h
      exact BigP.prog_safe TrC.out⟩

/-! ### Goroutines -/

private theorem task_tr (n : Nat) (g : CcsGlobals) (sha : List UInt8 → List UInt8) (T : CcsTask) :
    Tr ⟨n, (· ∈ g.cells ++ T.reads), (· ∈ T.writes)⟩ (T.run g sha) := by
  have hb : ∀ {E : Share} (b : Bool), HasCells.all E.Wr [b] := fun b _ _ => trivial
  have hg : IsRd ⟨n, (· ∈ g.cells ++ T.reads), (· ∈ T.writes)⟩ g := isRd_globals fun _ h => List.mem_append_left _ h
  cases T with
  | set S rnd x r m v s t => exact tr_map_pure Inter.runSet_tr hb
  | ul u l rnd x r m v s t => exact tr_map_pure Inter.runUL_tr hb
  | range a b rnd cs => exact Inter.runRange_tr
  | sign k m => exact tr_map_pure Inter.runSign_tr fun _ _ _ => trivial
  | session p cs =>
    have hp : IsRd ⟨n, (· ∈ g.cells ++ (CcsTask.session p cs).reads), (· ∈ (CcsTask.session p cs).writes)⟩ p :=
      isRd_cells fun _ h => List.mem_append_right _ h
    exact Inter.ccsSessionH_tr cs [] ⟨fun _ h => by cases h⟩
  | verifySet q p =>
    refine tr_map_pure ?_ hb
    exact Inter.verifySetH_tr' (fun _ h => List.mem_append_left _ h) (fun _ h => List.mem_append_right _ (List.mem_append_left _ h))
      (fun _ h => List.mem_append_right _ (List.mem_append_right _ h)) fun _ h => h
  | verifyUL q p =>
    refine tr_map_pure ?_ hb
    exact Inter.verifyULH_tr' (fun _ h => List.mem_append_left _ h) (fun _ h => List.mem_append_right _ (List.mem_append_left _ h))
      (fun _ h => List.mem_append_right _ (List.mem_append_right _ h)) fun _ h => h
  | verify q p =>
    refine tr_map_pure ?_ hb
    exact Inter.ccsVerifyH_tr' (fun _ h => List.mem_append_left _ h) (fun _ h => List.mem_append_right _ (List.mem_append_left _ h))
      (fun _ h => List.mem_append_right _ (List.mem_append_right _ h)) fun _ h => h

private theorem effect_map {α β : Type} {m : BigM α} {s : BigHeap} {W : List Cell} {Q : α → BigHeap → Prop} {f : α → β}
    {Q' : β → BigHeap → Prop} (h : Effect m s W Q) (hQ : ∀ a s', Q a s' → Q' (f a) s') :
    Effect (do pure (f (← m)) : BigM β) s W Q' := by
  obtain ⟨r, s', e, h1, h2, h3, hq⟩ := h
  refine ⟨f r, s', ?_, h1, h2, h3, hQ _ _ hq⟩
  show (m s >>= fun a => Res.ok (f a.1, a.2)) = _
  rw [e]
  rfl

/-- C92: one goroutine with one task. -/
theorem C92_task (hr : CcsReady g s) (sha : List UInt8 → List UInt8) {T : CcsTask} {bs : List Bool} (hT : T.Ready g s)
    (h : T.Gives sha s.mem bs) :
    Effect (T.run g sha).alone s T.writes fun r s' => r = bs ∧ T.Leaves s.mem s'.mem := by
  cases T with
  | set S rnd x r m v σ t =>
    obtain ⟨p, q, q', b, h1, h2, h3, rfl⟩ := h
    have hE := C84_run_set hr sha S rnd x r m v σ t h1 h2 h3
    unfold CcsTask.run Inter.runSet
    simp only [inter_alone]
    exact effect_map (f := fun b => [b]) hE fun a s' h => ⟨by rw [h.1], trivial⟩
  | ul u l rnd x r m v σ t =>
    obtain ⟨p, q, q', b, h1, h2, h3, rfl⟩ := h
    have hE := C84_run_ul hr sha u l rnd x r m v σ t h1 h2 h3
    unfold CcsTask.run Inter.runUL
    simp only [inter_alone]
    exact effect_map (f := fun b => [b]) hE fun a s' h => ⟨by rw [h.1], trivial⟩
  | range a b rnd cs =>
    obtain ⟨p, h1, h2⟩ := h
    obtain ⟨r, s', e, e1, e2, e3, e4, _⟩ := C85_from_setup hr sha h1 h2
    refine ⟨r, s', ?_, e1, e2, e3, e4, trivial⟩
    rw [← e]
    unfold CcsTask.run Inter.runRange
    simp only [inter_alone, Inter.ccsSessionH_alone]
  | sign k m =>
    obtain ⟨y, sig, b, h1, h2, h3, rfl⟩ := h
    have hE := C84_run_bb hr k m hT h1 h2 h3
    unfold CcsTask.run Inter.runSign
    simp only [inter_alone]
    exact effect_map (f := fun b : Option Bool => b.toList) hE fun a s' h => ⟨by rw [h.1], trivial⟩
  | session p cs =>
    obtain ⟨h1, h2, h3⟩ := hT
    obtain ⟨r, s', e, e1, e2, e3, e4, _⟩ := C85_session hr h1 h2 h3 sha h
    refine ⟨r, s', ?_, e1, e2, e3, e4, trivial⟩
    rw [← e]
    unfold CcsTask.run
    rw [Inter.ccsSessionH_alone]
  | verifySet q p =>
    obtain ⟨h1, h2, h3, h4, h5, h6⟩ := hT
    obtain ⟨q', b, hv, rfl⟩ := h
    have hE := (C84_verifySet hr h1 h2 h3 h4 h5 h6).2 _ hv
    unfold CcsTask.run
    simp only [inter_alone]
    refine effect_map (f := fun b => [b]) hE fun a s' h => ⟨by rw [h.1], ?_⟩
    intro q'' b'' hv'
    rw [hv] at hv'
    cases hv'
    exact h.2.2
  | verifyUL q p =>
    obtain ⟨h1, h2, h3, h4, h5, h6⟩ := hT
    obtain ⟨q', b, hv, rfl⟩ := h
    have hE := (C84_verifyUL hr h1 h2 h3 h4 h5 h6).2 _ hv
    unfold CcsTask.run
    simp only [inter_alone]
    refine effect_map (f := fun b => [b]) hE fun a s' h => ⟨by rw [h.1], ?_⟩
    intro q'' b'' hv'
    rw [hv] at hv'
    cases hv'
    exact h.2.2
  | verify q p =>
    obtain ⟨h1, h2, h3, h4, h5, h6⟩ := hT
    obtain ⟨q', b, hv, rfl⟩ := h
    have hE := (C84_verify hr (p := some p) h1 h2 h3 h4 h5 (fun _ e => Option.some.inj e ▸ h6)).2 _ hv
    unfold CcsTask.run
    simp only [inter_alone]
    refine effect_map (f := fun b => [b]) hE fun a s' h => ⟨by rw [h.1], ?_⟩
    intro q'' b'' hv'
    rw [hv] at hv'
    cases hv'
    exact h.2.2

private theorem forall₂_mem {α β : Type} {P Q : α → β → Prop} {l : List α} {l' : List β} (h : List.Forall₂ P l l')
    (hPQ : ∀ a b, a ∈ l → P a b → Q a b) : List.Forall₂ Q l l' := by
  induction h with
  | nil => exact .nil
  | cons h1 _ ih => exact .cons (hPQ _ _ List.mem_cons_self h1) (ih fun a b ha => hPQ a b (List.mem_cons_of_mem _ ha))

private theorem leaves_congr {T : CcsTask} (hT : T.Ready g s) {mem mem' : Cell → Int} (h : T.Leaves s.mem mem')
    (he : ∀ c < s.next, c ∈ T.reads → mem c = mem' c) : T.Leaves s.mem mem := by
  cases T with
  | verifySet q p => exact fun q' b hv => (HeapLaw.congr fun c hc => he c (hT.2.1.2 c hc) (List.mem_append_right _ hc)).trans (h q' b hv)
  | verifyUL q p => exact fun q' b hv => (HeapLaw.congr fun c hc => he c (hT.2.1.2 c hc) (List.mem_append_right _ hc)).trans (h q' b hv)
  | verify q p => exact fun q' b hv => (HeapLaw.congr fun c hc => he c (hT.2.1.2 c hc) (List.mem_append_right _ hc)).trans (h q' b hv)
  | _ => trivial

private theorem writes_globals {T : CcsTask} (hT : T.Ready g s) : Disj g.cells T.writes := by
  have key : ∀ {l l' : List Cell}, Disj g.cells l → l' ⊆ l → Disj g.cells l' := fun h hs c hc hc' => h c hc (hs hc')
  cases T with
  | verifySet q p =>
    refine key hT.2.2.2.1 fun c hc => ?_
    show c ∈ HeapObj.cells q.V ++ HeapObj.cells q.D ++ HeapObj.cells q.C ++ HeapObj.cells q.a
    have hc : c ∈ HeapObj.cells q.D ++ HeapObj.cells q.a := hc
    simp only [List.mem_append] at hc ⊢
    tauto
  | verifyUL q p => exact key hT.2.2.2.1 q.sub_written.subset
  | verify q p =>
    refine key hT.2.2.2.1 ?_
    have h : ∀ o : Option ProofULH, (o.elim [] ProofULH.written).Sublist (HeapObj.cells o) := by
      intro o
      cases o with
      | none => exact List.Sublist.refl _
      | some q => exact q.sub_written
    exact (List.Sublist.append (h q.p1) (h q.p2)).subset
  | _ => exact fun _ _ h => by cases h

/-- C92: goroutines with any tasks, in any order of their accesses to memory: if no task may write what another one uses, all
goroutines get the verdicts which the model on values gives, in which nothing is shared, and no other objects change. -/
theorem C92_tasks (hr : CcsReady g s) (sha : List UInt8 → List UInt8) {Ts : List CcsTask} {bss : List (List Bool)}
    (hT : ∀ T ∈ Ts, T.Ready g s) (h : List.Forall₂ (fun T bs => T.Gives sha s.mem bs) Ts bss)
    (hsep : ∀ (i j : Nat) T T', Ts[i]? = some T → Ts[j]? = some T' → i ≠ j → Disj T.writes (T'.reads ++ T'.writes)) :
    Concurrently s (Ts.map fun T => (T.run g sha).prog) bss fun mem =>
      (∀ c < s.next, (∀ T ∈ Ts, c ∉ T.writes) → mem c = s.mem c) ∧ ∀ T ∈ Ts, T.Leaves s.mem mem := by
  have key := concurrently hr.pool (fun T : CcsTask => T.run g sha) (fun T => g.cells ++ T.reads) CcsTask.writes
    (fun T _ s' => T.Leaves s.mem s'.mem) (ws := Ts) (vs := bss) ?_ (fun T _ => task_tr s.next g sha T) ?_
  · obtain ⟨k, hk⟩ := key
    refine ⟨k, fun sched hs => ?_⟩
    obtain ⟨m, e, h1, h2⟩ := hk sched hs
    refine ⟨m, e, fun l hl => ?_, h2⟩
    obtain ⟨e1, e2, e3⟩ := h1 l hl
    refine ⟨e1, e2, fun T hm => ?_⟩
    obtain ⟨i, hi⟩ := List.mem_iff_getElem?.1 hm
    have hi' : i < bss.length := by
      rw [← h.length_eq]
      exact (List.getElem?_eq_some_iff.1 hi).1
    obtain ⟨s', f1, f2, f3⟩ := e3 i T _ hi (List.getElem?_eq_getElem hi')
    exact leaves_congr (hT T hm) f1 fun c hc hc' => f3 c hc (List.mem_append_left _ (List.mem_append_right _ hc'))
  · exact forall₂_mem h fun T bs hm h => C92_task hr sha (hT T hm) h
  · intro i j T T' hi hj hij c hc hc'
    rcases List.mem_append.1 hc' with h1 | h1
    · rcases List.mem_append.1 h1 with h2 | h2
      · exact writes_globals (hT T (List.mem_of_getElem? hi)) c h2 hc
      · exact hsep i j T T' hi hj hij c hc (List.mem_append_left _ h2)
    · exact hsep i j T T' hi hj hij c hc (List.mem_append_right _ h1)

/-- C92: goroutines which use one set of parameters, each for its own calls of `Prove` and `Verify`. -/
theorem C92_shared_params (hr : CcsReady g s) (sha : List UInt8 → List UInt8) {p : CcsParamsH} (hp : Live s p)
    (hgp : Disj g.cells (HeapObj.cells p)) (hk : KeyOk (HeapObj.val s.mem p.p.kp)) {css : List (List CcsCall)} {bss : List (List Bool)}
    (h : List.Forall₂ (fun cs bs => CcsSession sha (HeapObj.val s.mem p) [] cs bs) css bss) :
    Concurrently s (css.map fun cs => (Inter.ccsSessionH g sha p [] cs).prog) bss fun mem => ∀ c < s.next, mem c = s.mem c := by
  have hm : ∀ T ∈ css.map (CcsTask.session p), T.writes = [] := fun T h => by
    obtain ⟨cs, _, rfl⟩ := List.mem_map.1 h
    rfl
  obtain ⟨k, hk⟩ := C92_tasks hr sha (Ts := css.map (CcsTask.session p)) (bss := bss) (fun T hT => by
      obtain ⟨cs, _, rfl⟩ := List.mem_map.1 hT
      exact ⟨hp, hgp, hk⟩) (List.forall₂_map_left_iff.2 h) (fun i j T T' hi _ _ c hc => by
      rw [hm T (List.mem_of_getElem? hi)] at hc
      cases hc)
  rw [List.map_map] at hk
  refine ⟨k, fun sched hs => ?_⟩
  obtain ⟨m, e, h1, h2⟩ := hk sched (fun i hi => by simpa using hs i hi)
  refine ⟨m, e, fun l hl => ⟨(h1 l hl).1, fun c hc => (h1 l hl).2.1 c hc fun T hT h => ?_⟩, fun hc => h2 (by simpa using hc)⟩
  rw [hm T hT] at h
  cases h

/-- C92: goroutines which verify different proofs with the same parameters. -/
theorem C92_shared_verify (hr : CcsReady g s) {p : CcsParamsH} (hp : Live s p)
    (hgp : Disj g.cells (HeapObj.cells p)) (hk : KeyOk (HeapObj.val s.mem p.p.kp)) {qs : List CcsProofH} (hq : Live s qs)
    (hgq : Disj g.cells (HeapObj.cells qs)) (hpq : Disj (HeapObj.cells p) (HeapObj.cells qs)) {vs : List (Bool × CcsProof)}
    (h : List.Forall₂ (fun q v => ccsVerify (HeapObj.val s.mem q) (some (HeapObj.val s.mem p)) = .ok v) qs vs) :
    Concurrently s (qs.map fun q => (Inter.ccsVerifyH g q (some p)).prog) (vs.map Prod.fst) fun mem =>
      HeapObj.val mem qs = vs.map Prod.snd ∧ ∀ c < s.next, c ∉ HeapObj.cells qs → mem c = s.mem c := by
  have hsub : ∀ q ∈ qs, (HeapObj.cells q).Sublist (HeapObj.cells qs) := fun q hq =>
    List.sublist_flatten_of_mem (List.mem_map_of_mem hq)
  have hready : ∀ q ∈ qs, (CcsTask.verify q p).Ready g s := fun q hm =>
    ⟨hp, liveCells_sub hq (hsub q hm), hgp, fun c hc hc' => hgq c hc ((hsub q hm).subset hc'),
      fun c hc hc' => hpq c hc ((hsub q hm).subset hc'), hk⟩
  have hw : ∀ q : CcsProofH, q.written ⊆ HeapObj.cells q := by
    intro q
    have h : ∀ o : Option ProofULH, (o.elim [] ProofULH.written).Sublist (HeapObj.cells o) := by
      intro o
      cases o with
      | none => exact List.Sublist.refl _
      | some q => exact q.sub_written
    exact (List.Sublist.append (h q.p1) (h q.p2)).subset
  have hap : ∀ (i j : Nat) (q q' : CcsProofH), qs[i]? = some q → qs[j]? = some q' → i ≠ j →
      Disj (HeapObj.cells q) (HeapObj.cells q') := by
    have key : ∀ (i j : Nat) (q q' : CcsProofH), qs[i]? = some q → qs[j]? = some q' → i < j →
        Disj (HeapObj.cells q) (HeapObj.cells q') := by
      intro i j q q' hi hj hij c hc hc'
      obtain ⟨hi1, hi2⟩ := List.getElem?_eq_some_iff.1 hi
      obtain ⟨hj1, hj2⟩ := List.getElem?_eq_some_iff.1 hj
      have := List.pairwise_iff_getElem.1 (List.nodup_flatten.1 hq.1).2 i j (by simpa using hi1) (by simpa using hj1) hij
      simp only [List.getElem_map, hi2, hj2] at this
      exact this hc hc'
    intro i j q q' hi hj hij
    rcases Nat.lt_or_gt_of_ne hij with h1 | h1
    · exact key i j q q' hi hj h1
    · exact fun c hc hc' => key j i q' q hj hi h1 c hc' hc
  have key := concurrently hr.pool (fun q : CcsProofH => Inter.ccsVerifyH g q (some p))
    (fun q => g.cells ++ (HeapObj.cells p ++ HeapObj.cells q)) CcsProofH.written
    (fun q _ s' => ∀ v, ccsVerify (HeapObj.val s.mem q) (some (HeapObj.val s.mem p)) = .ok v → HeapObj.val s'.mem q = v.2)
    (ws := qs) (vs := vs.map Prod.fst) ?_ (fun q _ => Inter.ccsVerifyH_tr' (fun _ h => List.mem_append_left _ h)
      (fun _ h => List.mem_append_right _ (List.mem_append_left _ h)) (fun _ h => List.mem_append_right _ (List.mem_append_right _ h))
      fun _ h => h) ?_
  · obtain ⟨k, hk⟩ := key
    refine ⟨k, fun sched hs => ?_⟩
    obtain ⟨m, e, h1, h2⟩ := hk sched hs
    refine ⟨m, e, fun l hl => ?_, h2⟩
    obtain ⟨e1, e2, e3⟩ := h1 l hl
    refine ⟨e1, ?_, fun c hc hn => e2 c hc fun q hm h => hn ((hsub q hm).subset (hw q h))⟩
    show qs.map (HeapObj.val m.shared) = vs.map Prod.snd
    have hlen := h.length_eq
    refine List.ext_getElem (by simpa using hlen) fun i hi hi' => ?_
    simp only [List.length_map] at hi hi'
    simp only [List.getElem_map]
    have hi1 : qs[i]? = some qs[i] := List.getElem?_eq_getElem hi
    obtain ⟨s', f1, f2, f3⟩ := e3 i qs[i] vs[i].1 hi1 (by rw [List.getElem?_map, List.getElem?_eq_getElem hi']; rfl)
    have hv := List.Forall₂.get h hi hi'
    rw [← f1 vs[i] hv]
    exact HeapLaw.congr fun c hc => f3 c ((hready _ (List.getElem_mem hi)).2.1.2 c hc)
      (List.mem_append_left _ (List.mem_append_right _ (List.mem_append_right _ hc)))
  · rw [List.forall₂_map_right_iff]
    refine forall₂_mem h fun q v hm hv => ?_
    obtain ⟨h1, h2, h3, h4, h5, h6⟩ := hready q hm
    rw [Inter.ccsVerifyH_alone]
    obtain ⟨r, s', e, e1, e2, e3, e4, e5, e6⟩ :=
      (C84_verify hr (p := some p) h1 h2 h3 h4 h5 (fun _ e => Option.some.inj e ▸ h6)).2 _ hv
    refine ⟨r, s', e, e1, e2, e3, e4, fun v' hv' => ?_⟩
    rw [hv] at hv'
    cases hv'
    exact e6
  · intro i j q q' hi hj hij c hc hc'
    have hm := List.mem_of_getElem? hi
    have hc1 := hw q hc
    have hd := hap i j q q' hi hj hij
    rcases List.mem_append.1 hc' with h1 | h1
    · rcases List.mem_append.1 h1 with h2 | h2
      · exact hgq c h2 ((hsub q hm).subset hc1)
      · rcases List.mem_append.1 h2 with h3 | h3
        · exact hpq c h3 ((hsub q hm).subset hc1)
        · exact hd c hc1 h3
    · exact hd c hc1 (hw q' h1)

/-! ### The same proof -/

/-- C92: the condition on the proofs is needed.  Two goroutines which call `VerifySet` for the same proof, valid and not verified
before, have a schedule in which the first one rejects it, the second one accepts it, and `D` is left off the curve. -/
theorem C92_same_proof (hr : CcsReady g s) {p : ParamsSetH} {q : ProofSetH} (hp : Live s p) (hq : Live s q)
    (hgp : Disj g.cells (HeapObj.cells p)) (hgq : Disj g.cells (HeapObj.cells q))
    (hpq : Disj (HeapObj.cells p) (HeapObj.cells q)) (hk : KeyOk (HeapObj.val s.mem p.kp)) {w : ProofSet}
    (hok : verifySet (HeapObj.val s.mem q) (HeapObj.val s.mem p) = .ok (true, w)) {Q : BG2}
    (hD : Rep2 (HeapObj.val s.mem q.D) Q) (hQ : Q ≠ 0) (hz : (HeapObj.val s.mem q.D).z.val ^ 6 ≠ 1) :
    (∃ sched m, (BMachine.start s.next s.mem [(Inter.verifySetH g q p).prog, (Inter.verifySetH g q p).prog]).exec sched = .ok m ∧
      m.results = some [false, true] ∧ OffTwist (HeapObj.val m.shared q.D)) ∧
    ∀ P, ¬ Concurrently s [(Inter.verifySetH g q p).prog, (Inter.verifySetH g q p).prog] [true, true] P := by
  obtain ⟨hone, hoff, -, -⟩ := raced_off hD hQ hz
  obtain ⟨sched, m, b, hs, e, hm, hb, hv⟩ := race_schedule hr hp hq hgp hgq hpq hk hone hok
  obtain rfl : b = false := by
    cases b with
    | true => exact absurd (hb rfl) ((C39_off _ hoff).2 _ Q hD hQ)
    | false => rfl
  refine ⟨⟨sched, m, e, hm, by rw [hv]; exact hoff⟩, fun P hc => ?_⟩
  obtain ⟨k, hk⟩ := hc
  obtain ⟨m', e', h1, -⟩ := hk sched hs
  obtain rfl : m = m' := Res.ok.inj (e.symm.trans e')
  exact absurd (h1 _ hm).1 (by decide)

/-! ### Cases -/

private theorem key1234 (m : Int) (h0 : 0 ≤ m) (h1 : m < 57) : ¬ m + 1234 ≡ 0 [ZMOD bnOrder] := by
  interval_cases m <;> decide +kernel

private theorem setup200 : ∃ vp, ccsSetup 18 200 (some 1234) = .ok (some vp) := by
  obtain ⟨p, _, hp⟩ := (C55_setup 18 200 1234 (by norm_num) key1234).2 (by norm_num)
  exact ⟨_, hp⟩

/-- At the start of the program four goroutines: two which make parameters for [18, 200), make proofs and verify them, one which
signs a message, and one which proves that 1234 is below 57^2. -/
example (sha : List UInt8 → List UInt8) (hsha : ∀ b, sha b ≠ []) (w : ULRandom) :
    let Ts : List CcsTask := [.range 18 200 (some 1234) [.prove 40 3 w w, .verify 0, .prove 17 1 w w, .verify 1, .verify 0],
      .range 18 200 (some 1234) [.prove (-5) 3 w w, .verify 0], .sign 1234 5, .ul 57 2 (some 1234) 1234 3 w.m w.v w.s w.t]
    ∃ bs bs' b, Concurrently ccsStart (Ts.map fun T => (T.run ccsVars sha).prog) [bs, bs', [true], [b]] fun mem =>
      (∀ c < ccsStart.next, (∀ T ∈ Ts, c ∉ T.writes) → mem c = ccsStart.mem c) ∧ ∀ T ∈ Ts, T.Leaves ccsStart.mem mem := by
  intro Ts
  obtain ⟨p, hp⟩ := setup200
  obtain ⟨bs, h1⟩ := C85_total sha hsha (by norm_num) key1234 hp [.prove 40 3 w w, .verify 0, .prove 17 1 w w, .verify 1, .verify 0]
    (by simp [CcsCallsOk])
  obtain ⟨bs', h2⟩ := C85_total sha hsha (by norm_num) key1234 hp [.prove (-5) 3 w w, .verify 0] (by simp [CcsCallsOk])
  obtain ⟨sig, pk, b0, k1, k2, k3, k4⟩ := C49_sign_verify 5 5 1234 (by decide +kernel) (Or.inr (by decide +kernel))
  obtain rfl : b0 = true := k4.2 rfl
  obtain ⟨pu, pk', e1, e2, e3, e4, _, _, e5⟩ := C54_setup 57 2 1234 key1234
  obtain ⟨q, f1, f2⟩ := proveUL_total sha hsha 1234 3 pu w.m w.v w.s w.t (by rw [e2]; norm_num) (by rw [e3]; norm_num) fun d hd => by
    obtain ⟨o, ho, sig, _, rfl, _⟩ := (e5 d).1 (e2 ▸ hd)
    exact ⟨sig, ho⟩
  obtain ⟨b, q', f3⟩ := verifyUL_total q pu (by rw [e4]; simp) f2
  refine ⟨bs, bs', b, C92_tasks ccsStart_ready sha ?_ ?_ ?_⟩
  · simp only [Ts, List.forall_mem_cons]
    exact ⟨trivial, trivial, Or.inr (by decide +kernel), trivial, fun _ h => by cases h⟩
  · exact .cons ⟨p, hp, h1⟩ (.cons ⟨p, hp, h2⟩ (.cons ⟨pk, sig, some true, k2, k1, k3, rfl⟩
      (.cons ⟨pu, q, q', b, e1, f1, f3, rfl⟩ .nil)))
  · intro i j T T' hi _ _ c hc
    have hw : ∀ T ∈ Ts, T.writes = [] := by
      simp only [Ts, List.forall_mem_cons]
      exact ⟨rfl, rfl, rfl, rfl, fun _ h => by cases h⟩
    rw [hw T (List.mem_of_getElem? hi)] at hc
    cases hc

/-- After `Setup` for [18, 200) any number of goroutines may use these parameters at the same time, whatever they prove and as long
as each verifies its own proofs. -/
example (sha : List UInt8 → List UInt8) (hsha : ∀ b, sha b ≠ []) (css : List (List CcsCall)) (hcs : ∀ cs ∈ css, CcsCallsOk 0 cs) :
    ∃ (s : BigHeap) (p : CcsParamsH) (bss : List (List Bool)), ccsSetupH ccsVars 18 200 (some 1234) ccsStart = .ok (some p, s) ∧
      List.Forall₂ (fun cs bs => CcsSession sha (HeapObj.val s.mem p) [] cs bs) css bss ∧
      Concurrently s (css.map fun cs => (Inter.ccsSessionH ccsVars sha p [] cs).prog) bss fun mem => ∀ c < s.next, mem c = s.mem c := by
  obtain ⟨vp, hp⟩ := setup200
  obtain ⟨p, s1, e, n1, n2, n3, ⟨l1, l2, _, l4⟩, hr1⟩ :=
    C84_ready ccsStart_ready ((C84_setup ccsStart_ready 18 200 (some 1234)).2 _ hp) (fun _ _ h => by cases h)
  cases p with
  | none => cases l2
  | some p =>
    have l2 : HeapObj.val s1.mem p = vp := Option.some.inj l2
    have hgp : Disj ccsVars.cells (HeapObj.cells p) := fun c hc hc' =>
      absurd (ccsStart_ready.live.2 c hc) (not_lt.2 (l4 rfl c hc'))
    have hk : KeyOk (HeapObj.val s1.mem p.p.kp) := by
      rw [show HeapObj.val s1.mem p.p.kp = vp.p.kp by rw [← l2]; rfl]
      exact (C84_key (some 1234)).2.2.2 18 200 vp hp
    have hbs : ∃ bss, List.Forall₂ (fun cs bs => CcsSession sha (HeapObj.val s1.mem p) [] cs bs) css bss := by
      rw [l2]
      clear e
      induction css with
      | nil => exact ⟨[], .nil⟩
      | cons cs css ih =>
        obtain ⟨bs, h1⟩ := C85_total sha hsha (by norm_num) key1234 hp cs (hcs cs List.mem_cons_self)
        obtain ⟨bss, h2⟩ := ih fun c hc => hcs c (List.mem_cons_of_mem _ hc)
        exact ⟨bs :: bss, .cons h1 h2⟩
    obtain ⟨bss, hbs⟩ := hbs
    exact ⟨s1, p, bss, e, hbs, C92_shared_params hr1 sha l1 hgp hk hbs⟩

/-- Two proofs made one after the other for these parameters, verified by two goroutines at the same time. -/
example (sha : List UInt8 → List UInt8) (hsha : ∀ b, sha b ≠ []) (w : ULRandom) :
    ∃ (s : BigHeap) (p : CcsParamsH) (q1 q2 : CcsProofH) (v1 v2 : Bool × CcsProof),
      (ccsSetupH ccsVars 18 200 (some 1234) >>= fun p => ccsProveH ccsVars sha p 40 3 w w >>= fun q1 =>
        ccsProveH ccsVars sha p 17 1 w w >>= fun q2 => pure (p, q1, q2)) ccsStart = .ok ((some p, q1, q2), s) ∧
      Concurrently s [(Inter.ccsVerifyH ccsVars q1 (some p)).prog, (Inter.ccsVerifyH ccsVars q2 (some p)).prog] [v1.1, v2.1]
        fun mem => HeapObj.val mem [q1, q2] = [v1.2, v2.2] ∧ ∀ c < s.next, c ∉ HeapObj.cells [q1, q2] → mem c = s.mem c := by
  obtain ⟨vp, hp⟩ := setup200
  have hg := ccsGood_setup (by norm_num) key1234 hp
  obtain ⟨vq1, g1, g2⟩ := ccsProve_total sha hsha hg 40 3 w w
  obtain ⟨vq2, g3, g4⟩ := ccsProve_total sha hsha hg 17 1 w w
  obtain ⟨b1, vq1', g5⟩ := ccsVerify_total hg g2
  obtain ⟨b2, vq2', g6⟩ := ccsVerify_total hg g4
  obtain ⟨p, s1, e, n1, n2, n3, ⟨l1, l2, _, l4⟩, hr1⟩ :=
    C84_ready ccsStart_ready ((C84_setup ccsStart_ready 18 200 (some 1234)).2 _ hp) (fun _ _ h => by cases h)
  cases p with
  | none => cases l2
  | some p =>
    have l2 : HeapObj.val s1.mem p = vp := Option.some.inj l2
    have hgp : Disj ccsVars.cells (HeapObj.cells p) := fun c hc hc' =>
      absurd (ccsStart_ready.live.2 c hc) (not_lt.2 (l4 rfl c hc'))
    have hP := (C84_prove hr1 (p := some p) l1 sha 40 3 w w).2
    rw [show HeapObj.val s1.mem (some p) = some vp from congrArg some l2] at hP
    obtain ⟨q1, s2, e2, m1, m2, m3, ⟨⟨o1, o2, _, o4⟩, hr2⟩, lp2, vp2⟩ :=
      C84_others (C84_ready hr1 (hP _ g1) (fun _ _ h => by cases h)) (a := p) l1 (fun _ _ h => by cases h)
    rw [l2] at vp2
    have hP := (C84_prove hr2 (p := some p) lp2 sha 17 1 w w).2
    rw [show HeapObj.val s2.mem (some p) = some vp from congrArg some vp2] at hP
    obtain ⟨q2, s3, e3, k1, k2, k3, ⟨⟨⟨r1, r2, _, r4⟩, hr3⟩, lp3, vp3⟩, lq3, vq3⟩ :=
      C84_others (C84_others (C84_ready hr2 (hP _ g3) (fun _ _ h => by cases h)) (a := p) lp2 (fun _ _ h => by cases h)) (a := q1) o1
        (fun _ _ h => by cases h)
    rw [vp2] at vp3
    rw [o2] at vq3
    have hk : KeyOk (HeapObj.val s3.mem p.p.kp) := by
      rw [show HeapObj.val s3.mem p.p.kp = vp.p.kp by rw [← vp3]; rfl]
      exact (C84_key (some 1234)).2.2.2 18 200 vp hp
    have hc : HeapObj.cells [q1, q2] = HeapObj.cells q1 ++ HeapObj.cells q2 := by
      show [HeapObj.cells q1, HeapObj.cells q2].flatten = _
      simp
    have hnew : ∀ c ∈ HeapObj.cells [q1, q2], s1.next ≤ c := by
      intro c h
      rw [hc, List.mem_append] at h
      exact h.elim (fun h => o4 rfl c h) fun h => m2.trans (r4 rfl c h)
    refine ⟨s3, p, q1, q2, (b1, vq1'), (b2, vq2'), ?_, C92_shared_verify hr3 (p := p) (qs := [q1, q2])
      (vs := [(b1, vq1'), (b2, vq2')]) lp3 hgp hk ⟨?_, fun c h => ?_⟩ ?_ ?_ (.cons ?_ (.cons ?_ .nil))⟩
    · show (ccsSetupH ccsVars 18 200 (some 1234) ccsStart >>= fun p => ccsProveH ccsVars sha p.1 40 3 w w p.2 >>= fun q1 =>
        ccsProveH ccsVars sha p.1 17 1 w w q1.2 >>= fun q2 => Res.ok ((p.1, q1.1, q2.1), q2.2)) = _
      rw [e]
      show (ccsProveH ccsVars sha (some p) 40 3 w w s1 >>= fun q1 =>
        ccsProveH ccsVars sha (some p) 17 1 w w q1.2 >>= fun q2 => Res.ok ((some p, q1.1, q2.1), q2.2)) = _
      rw [e2]
      show (ccsProveH ccsVars sha (some p) 17 1 w w s2 >>= fun q2 => Res.ok ((some p, q1, q2.1), q2.2)) = _
      rw [e3]
      rfl
    · rw [hc, List.nodup_append]
      refine ⟨o1.1, r1.1, fun a ha b hb hab => ?_⟩
      subst hab
      exact absurd (o1.2 a ha) (not_lt.2 (r4 rfl a hb))
    · rw [hc, List.mem_append] at h
      exact h.elim (fun h => lq3.2 c h) fun h => r1.2 c h
    · exact fun c h h' => absurd ((ccsStart_ready.live.2 c h).trans_le n2) (not_lt.2 (hnew c h'))
    · exact fun c h h' => absurd (l1.2 c h) (not_lt.2 (hnew c h'))
    · rw [vq3, vp3]; exact g5
    · rw [r2, vp3]; exact g6

/-- The set {1, 5, 9}, the element 5, the key 1234 and small randomness, with a constant hash function: after `SetupSet` and
`ProveSet` two goroutines which verify this one proof. -/
example : ∃ (s : BigHeap) (p : ParamsSetH) (q : ProofSetH) (sched : List Nat) (m : BMachine Bool),
    (setupSetH ccsVars [1, 5, 9] (some 1234) >>= fun p => proveSetH ccsVars (fun _ => List.replicate 32 77) 5 3 p 11 13 17 19 >>=
      fun q => pure (p, q)) ccsStart = .ok ((p, some q), s) ∧
    (BMachine.start s.next s.mem [(Inter.verifySetH ccsVars q p).prog, (Inter.verifySetH ccsVars q p).prog]).exec sched = .ok m ∧
    m.results = some [false, true] := by
  obtain ⟨p, q, q', Q, h1, h2, h3, hD, hQ, hz⟩ := setExample_race
  obtain ⟨p', s1, e1, _, n1, k1, ⟨l1, rfl, _, f1⟩, hr1⟩ := C84_ready ccsStart_ready
    ((C84_setupSet ccsStart_ready [1, 5, 9] (some 1234)).2 _ h1) (fun _ _ h => by cases h)
  obtain ⟨o, s2, e2, _, n2, k2, ⟨⟨l2, v2, _, f2⟩, hr2⟩, l3, v3⟩ := C84_others (C84_ready hr1
    ((C84_proveSet hr1 l1 _ 5 3 11 13 17 19).2 _ h2) (fun _ _ h => by cases h)) (a := p') l1 (fun _ _ h => by cases h)
  cases o with
  | none => cases v2
  | some o =>
    obtain rfl := Option.some.inj v2
    have hnew {n : Nat} {l l' : List Cell} (h : ∀ c ∈ l, c < n) (h' : ∀ c ∈ l', n ≤ c) : Disj l l' :=
      fun c hc hc' => absurd (h c hc) (not_lt.2 (h' c hc'))
    obtain ⟨⟨sched, m, e, hm, _⟩, _⟩ := C92_same_proof hr2 l3 l2 (hnew ccsStart_ready.live.2 (f1 rfl)) (hnew hr1.live.2 (f2 rfl))
      (hnew l1.2 (f2 rfl))
      (by rw [show HeapObj.val s2.mem p'.kp = (HeapObj.val s1.mem p').kp by rw [← v3]; rfl]; exact (C84_key (some 1234)).2.1 _ _ h1)
      (v3.symm ▸ h3) hD hQ hz
    refine ⟨s2, p', o, sched, m, ?_, e, hm⟩
    show (setupSetH ccsVars [1, 5, 9] (some 1234) ccsStart >>= fun p =>
      proveSetH ccsVars (fun _ => List.replicate 32 77) 5 3 p.1 11 13 17 19 p.2 >>= fun q => Res.ok ((p.1, q.1), q.2)) = _
    rw [e1]
    show (proveSetH ccsVars (fun _ => List.replicate 32 77) 5 3 p' 11 13 17 19 s1 >>= fun q => Res.ok ((p', q.1), q.2)) = _
    rw [e2]
    rfl

end Verif
