import Verif.Props.Bp
import Verif.Props.Json

/-!
# C104: accepted range proofs can be changed into others
-/

namespace Verif

theorem scalarMult_residue {E : Ext} (hE : E.Ok) (a : P256) {m n : Int} (h : m ≡ n [ZMOD ORDER]) :
    a.scalarMult E m = a.scalarMult E n := by
  have key : ∀ k : Int, a.scalarMult E k = if a.isZero then P256.infinity else E.scalarMult a.x a.y (k % ORDER).toNat := by
    intro k
    rw [P256.scalarMult]
    split
    · rfl
    · split
      · rename_i h0
        rw [h0, Int.zero_emod, Int.toNat_zero, hE.scalarMult_zero]
        rfl
      · rfl
  rw [key, key, show m % ORDER = n % ORDER from h]

theorem scalarBaseMult_residue {E : Ext} (hE : E.Ok) {m n : Int} (h : m ≡ n [ZMOD ORDER]) :
    P256.scalarBaseMult E m = P256.scalarBaseMult E n := by
  have key : ∀ k : Int, P256.scalarBaseMult E k = E.scalarMult secpGx secpGy (k % ORDER).toNat := by
    intro k
    rw [P256.scalarBaseMult]
    split
    · rename_i h0
      rw [h0, Int.zero_emod, Int.toNat_zero, hE.scalarMult_zero]
      rfl
    · rfl
  rw [key, key, show m % ORDER = n % ORDER from h]

theorem ipVerify_residue {E : Ext} (hE : E.Ok) (p : IPProof) {a b : Int} (ha : a ≡ p.A [ZMOD ORDER]) (hb : b ≡ p.B [ZMOD ORDER]) :
    ipVerify E { p with A := a, B := b } = ipVerify E p := by
  simp only [ipVerify, scalarMult_residue hE _ ha, scalarMult_residue hE _ hb]
  rw [show a * b % ORDER = p.A * p.B % ORDER from ha.mul hb]

/-- C104: `Verify` reads the numbers of a proof modulo the order; whatever the proof is, others with the same residues get the same verdict
(and leave the same point in `P`). -/
theorem C104_residues {E : Ext} (hE : E.Ok) (p : BPProof) {taux mu tprime a b : Int} (h1 : taux ≡ p.Taux [ZMOD ORDER])
    (h2 : mu ≡ p.Mu [ZMOD ORDER]) (h3 : tprime ≡ p.Tprime [ZMOD ORDER]) (h4 : a ≡ p.IP.A [ZMOD ORDER]) (h5 : b ≡ p.IP.B [ZMOD ORDER]) :
    bpVerify E { p with Taux := taux, Mu := mu, Tprime := tprime, IP := { p.IP with A := a, B := b } } = bpVerify E p := by
  simp only [bpVerify, ipVerify_residue hE p.IP h4 h5, commitG1, scalarMult_residue hE _ h1, scalarBaseMult_residue hE h3,
    scalarMult_residue hE _ h2]

/-- C104: the inner-product proof of an accepted proof can be replaced by that of any other accepted proof. -/
theorem C104_splice {E : Ext} {p q : BPProof} {P Q : P256} (hp : bpVerify E p = .ok (true, P)) (hq : bpVerify E q = .ok (true, Q)) :
    bpVerify E { p with IP := q.IP } = .ok (true, Q) := by
  simp only [bpVerify, Res.bind_eq_ok, Res.ok.injEq, Prod.mk.injEq, Bool.and_eq_true, Prod.exists] at hp hq ⊢
  obtain ⟨_, -, _, -, _, -, _, -, _, -, _, -, _, -, _, -, b, P', h, ⟨-, rfl⟩, rfl⟩ := hq
  obtain ⟨hp, h1, dl, h2, vmz, h3, gp, h4, vz, h5, vy, h6, p2, h7, he, h8, b, P', -, ⟨hc, -⟩, -⟩ := hp
  exact ⟨hp, h1, dl, h2, vmz, h3, gp, h4, vz, h5, vy, h6, p2, h7, he, h8, _, _, h, ⟨hc, rfl⟩, rfl⟩

/-- C104: everybody can change an accepted proof into one for a commitment with other randomness and another value. -/
theorem C104_rerandomize {E : Ext} (hE : E.Ok) {proof : BPProof} {n : Nat} (hn : 1 ≤ n) {G Hh : Nat → Secp}
    {H V A S T1 T2 C : Secp} (hgen : Generators proof.Params n G Hh H) (hpts : ProofPoints proof V A S T1 T2 C)
    (hy : n = 1 ∨ ¬ ORDER ∣ (hashBP E proof.A proof.S).1) (d e : Int) {V' : P256} (hV' : Rep V' (V + (d : Fn) • secpG + (e : Fn) • H))
    {tprime taux : Int} (h1 : tprime ≡ proof.Tprime + (hashBP E proof.A proof.S).2 ^ 2 * d [ZMOD ORDER])
    (h2 : taux ≡ proof.Taux + (hashBP E proof.A proof.S).2 ^ 2 * e [ZMOD ORDER])
    (k1 : AddOk ((proof.Tprime : Fn) • secpG) ((proof.Taux : Fn) • H)) (k2 : AddOk ((tprime : Fn) • secpG) ((taux : Fn) • H)) :
    bpVerify E { proof with V := V', Tprime := tprime, Taux := taux } = bpVerify E proof := by
  obtain ⟨c, c1, c2⟩ := bpVerify_exact hE hn hgen.N hgen.Gg hgen.Hh hgen.H hpts.V hpts.A hpts.S hpts.T1 hpts.T2
    hpts.Commit (x := (hashBP E proof.T1 proof.T2).1) (y := (hashBP E proof.A proof.S).1)
    (z := (hashBP E proof.A proof.S).2) rfl rfl hy
  obtain ⟨f, e1, e2⟩ := bpVerify_exact hE (proof := { proof with V := V', Tprime := tprime, Taux := taux }) hn hgen.N hgen.Gg hgen.Hh
    hgen.H hV' hpts.A hpts.S hpts.T1 hpts.T2 hpts.Commit (x := (hashBP E proof.T1 proof.T2).1) (y := (hashBP E proof.A proof.S).1)
    (z := (hashBP E proof.A proof.S).2) rfl rfl hy
  have hce : c = f := by
    rw [Bool.eq_iff_iff, c2, e2]
    refine and_congr ?_ Iff.rfl
    have t1 : (tprime : Fn) = proof.Tprime + ((hashBP E proof.A proof.S).2 : Fn) ^ 2 * d := by
      have := (ZMod.intCast_eq_intCast_iff _ _ secpNn).2 (ORDER_eq ▸ h1)
      push_cast at this
      exact this
    have t2 : (taux : Fn) = proof.Taux + ((hashBP E proof.A proof.S).2 : Fn) ^ 2 * e := by
      have := (ZMod.intCast_eq_intCast_iff _ _ secpNn).2 (ORDER_eq ▸ h2)
      push_cast at this
      exact this
    rw [addOf_eq k1, addOf_eq k2, t1, t2, ← sub_eq_zero, ← sub_eq_zero (a := ((proof.Tprime : Fn) + _) • secpG + _)]
    refine Eq.congr ?_ rfl
    module
  rw [e1, ← hce, ← c1]

/-- C104: each accepted proof has infinitely many texts which decode to accepted proofs for the same commitment. -/
theorem C104_texts {E : Ext} (hE : E.Ok) {p : BPProof} (hi : p.Int64) {P' : P256} (hv : bpVerify E p = .ok (true, P')) :
    ∃ text : Nat → List UInt8, Function.Injective text ∧ ∀ k, ∃ q : BPProof,
      (unmarshalBP (text k)).bind GoBPProof.deref = some q ∧ q.V = p.V ∧ q.Params = p.Params ∧ bpVerify E q = .ok (true, P') := by
  have hi' : ∀ k : Nat, ({ p with Taux := p.Taux + k * ORDER } : BPProof).Int64 := fun _ => hi
  refine ⟨fun k => marshalBP ({ p with Taux := p.Taux + k * ORDER } : BPProof).toGo, fun k l h => ?_,
    fun k => ⟨{ p with Taux := p.Taux + k * ORDER }, ?_, rfl, rfl, ?_⟩⟩
  · have := C57_injective (hi' k).toGo (hi' l).toGo h
    have : p.Taux + k * ORDER = p.Taux + l * ORDER := Option.some.inj (congrArg GoBPProof.Taux this)
    have h0 : (ORDER : Int) ≠ 0 := by decide
    have := mul_right_cancel₀ h0 (add_left_cancel this)
    exact_mod_cast this
  · rw [C57_bulletproof (hi' k).toGo]
    exact BPProof.deref_toGo _
  · rw [← hv]
    refine C104_residues hE p (mu := p.Mu) (tprime := p.Tprime) (a := p.IP.A) (b := p.IP.B) ?_ rfl rfl rfl rfl
    simp [Int.ModEq]

/-! ### Instances -/

/-- The honest proof of the example in `Props/Bp.lean`: other numbers for its fields and the inner-product proof of another run are accepted,
and it becomes a proof for its commitment with the randomness moved by 5 and the value moved by a million. -/
example : ∃ (E : Ext) (p q : BPProof) (P Q : P256) (V V' : Secp) (tprime taux : Int), E.Ok ∧ bpVerify E p = .ok (true, P) ∧
    bpVerify E q = .ok (true, Q) ∧ bpVerify E { p with IP := q.IP } = .ok (true, Q) ∧ p.IP ≠ q.IP ∧
    bpVerify E { p with Mu := p.Mu - ORDER } = .ok (true, P) ∧ Rep p.V V ∧
    V' = V + ((1000000 : Int) : Fn) • secpG + ((5 : Int) : Fn) • (1000 : Fn) • secpG ∧
    bpVerify E { p with V := canonP V', Tprime := tprime, Taux := taux } = .ok (true, P) := by
  have hE := idealExt_ok hashOne (fun _ => rfl)
  obtain ⟨p, P, V, A, S, T1, T2, C, hv, hpar, hpts, _, _, hT, hX⟩ := exBP_accepted
  have hg : Generators p.Params 2 exGg exHh ((1000 : Fn) • secpG) := by rw [hpar]; exact exBP_generators
  have hy : 2 = 1 ∨ ¬ ORDER ∣ (hashBP (idealExt hashOne) p.A p.S).1 := by
    right; rw [hashBP_hashOne]; decide
  have hq : bpVerify (idealExt hashOne) { p with IP := { p.IP with A := p.IP.A + ORDER, B := p.IP.B } } = .ok (true, P) := by
    rw [← hv]
    exact C104_residues hE p (taux := p.Taux) (mu := p.Mu) (tprime := p.Tprime) (a := p.IP.A + ORDER) (b := p.IP.B) rfl rfl rfl
      (by simp [Int.ModEq]) rfl
  refine ⟨_, p, _, P, P, V, _, p.Tprime + (hashBP (idealExt hashOne) p.A p.S).2 ^ 2 * 1000000,
    p.Taux + (hashBP (idealExt hashOne) p.A p.S).2 ^ 2 * 5, hE, hv, hq, C104_splice hv hq, ?_, ?_, hpts.V, rfl, ?_⟩
  · intro h
    have h1 : p.IP.A = p.IP.A + ORDER := congrArg IPProof.A h
    have h0 : (ORDER : Int) ≠ 0 := by decide
    exact h0 (by linarith)
  · rw [← hv]
    exact C104_residues hE p (taux := p.Taux) (mu := p.Mu - ORDER) (tprime := p.Tprime) (a := p.IP.A) (b := p.IP.B) rfl
      (by simp [Int.ModEq]) rfl rfl rfl
  · rw [← hv]
    refine C104_rerandomize hE (by decide) hg hpts hy 1000000 5 (rep_canonP _) rfl rfl ?_ ?_
    · rw [hT, hX, smul_smul]; exact addOk_smul (by decide +kernel)
    · rw [Int.cast_add, Int.cast_add, hT, hX, smul_smul, hashBP_hashOne]; exact addOk_smul (by decide +kernel)

/-- The proof of the example of C23 has infinitely many texts. -/
example : ∃ (E : Ext) (V : P256) (text : Nat → List UInt8), Function.Injective text ∧ ∀ k, ∃ (q : BPProof) (P' : P256),
    (unmarshalBP (text k)).bind GoBPProof.deref = some q ∧ q.V = V ∧ bpVerify E q = .ok (true, P') := by
  have hE := idealExt_ok hashOne (fun _ => rfl)
  obtain ⟨proof, P', hw, hf, hv, hp⟩ := exBP_finite
  obtain ⟨text, h1, h2⟩ := C104_texts hE (prove_int64 hE (n := 2) (by norm_num) exBP_generators rfl rfl hp) hv
  refine ⟨idealExt hashOne, proof.V, text, h1, fun k => ?_⟩
  obtain ⟨q, e1, e2, _, e3⟩ := h2 k
  exact ⟨q, P', e1, e2, e3⟩

end Verif
