import Verif.Props.Bb

/-! # Lemmas for ccs08 -/

namespace Verif

theorem GExp.congr {x : GfP12} {k l : Int} (h : k ≡ l [ZMOD bnOrder]) (hx : GExp x k) : GExp x l := by
  rw [GExp, hx, (gtGen_zpow_eq k l).2 h]

theorem ccsA_exp {V : TwistPoint} {v s t : Int} (hV : Rep2 V (v • bnG2)) (hok : PairOk V) (hs : 0 ≤ s)
    (ht : 0 ≤ t) : GExp (ccsA V s t) (t - v * s) := by
  have h := (((GExp.pair rep1_utilG1 hV hok).scalarMult hs).invert).mul (gexp_utilE.scalarMult ht)
  have e : -(1 * v * s) + 1 * t = t - v * s := by ring
  rw [e] at h
  exact h

theorem ccsRhs_exp {pk : CurvePoint} {V : TwistPoint} {sk v c zsig zv : Int} (hp : Rep1 pk (sk • bnG1))
    (hV : Rep2 V (v • bnG2)) (hok : PairOk V) (hc : 0 ≤ c) (hz : 0 ≤ zsig) (hv : 0 ≤ zv) :
    GExp (ccsRhs pk V c zsig zv) (sk * v * c - v * zsig + zv) := by
  have h := (((GExp.pair hp hV hok).scalarMult hc).mul
    ((GExp.pair rep1_utilG1 hV hok).scalarMult hz).invert).mul (gexp_utilE.scalarMult hv)
  have e : sk * v * c + -(1 * v * zsig) + 1 * zv = sk * v * c - v * zsig + zv := by ring
  rw [e] at h
  exact h

/-- No step of a sequence of in-place additions, starting with the multiple `k` of the generator and
adding the given multiples, adds an element to itself. -/
def NoClash : Int → List Int → Prop
  | _, [] => True
  | k, l :: ls => (k ≡ 0 [ZMOD bnOrder] ∨ ¬ k ≡ l [ZMOD bnOrder]) ∧ NoClash (k + l) ls

instance : ∀ (k : Int) (ls : List Int), Decidable (NoClash k ls)
  | _, [] => inferInstanceAs (Decidable True)
  | k, l :: ls => by
    have := instDecidableNoClash (k + l) ls
    unfold NoClash
    infer_instance

theorem commit_exp {x r h : Int} {H : TwistPoint} (hH : Rep2 H (h • bnG2)) (hx : 0 ≤ x) (hr : 0 ≤ r)
    (hn : NoClash x [h * r]) : Rep2 (commit x r H) ((x + h * r) • bnG2) :=
  addSelf_exp2 (C36_scalarBaseMult x hx) (scalarMult_exp2 hH r hr) hn.1

/-- The commitment to a negative number that is not a multiple of `Order` is not on the curve. -/
theorem commit_off {x r h : Int} {H : TwistPoint} (hH : Rep2 H (h • bnG2)) (hx : x < 0) (hd : ¬ bnOrder ∣ x)
    (hr : 0 ≤ r) (hn : SafeAdds (G2.scalarBaseMult x) [G2.scalarMult H r]) : OffTwist (commit x r H) :=
  ((C36_scalarBaseMult_negative x hx).2 hd).1.addSelf (scalarMult_exp2 hH r hr) hn.1

/-- A signature stored for `m`: the inverse of `m + sk` times the generator. -/
def SigOk (sk m : Int) (o : Option TwistPoint) : Prop :=
  ∃ sig i, o = some sig ∧ Rep2 sig (i • bnG2) ∧ PairOk sig ∧ i * (m + sk) ≡ 1 [ZMOD bnOrder]

theorem signLoop_spec (sk : Int) : ∀ (ms : List Int) (acc : List (Int × Option TwistPoint)),
    (∀ m ∈ ms, ¬ m + sk ≡ 0 [ZMOD bnOrder]) →
    ∃ out, signLoop (some sk) ms acc = .ok out ∧
      ∀ x, (x ∈ ms → ∃ o, out.lookup x = some o ∧ SigOk sk x o) ∧ (x ∉ ms → out.lookup x = acc.lookup x)
  | [], acc, _ => ⟨acc, rfl, fun x => ⟨fun h => absurd h List.not_mem_nil, fun _ => rfl⟩⟩
  | m :: ms, acc, h => by
    obtain ⟨sig, i, h1, h2, h3, h4⟩ := C49_sign m sk (h m List.mem_cons_self)
    obtain ⟨out, ho, hx⟩ := signLoop_spec sk ms ((m, some sig) :: acc)
      (fun m' hm => h m' (List.mem_cons_of_mem _ hm))
    refine ⟨out, ?_, fun x => ⟨fun hm => ?_, fun hm => ?_⟩⟩
    · rw [signLoop]
      simp only [Res.ofOption, bind, Res.bind, h1]
      exact ho
    · by_cases hms : x ∈ ms
      · exact (hx x).1 hms
      · have e : x = m := (List.mem_cons.1 hm).resolve_right hms
        refine ⟨some sig, ?_, sig, i, rfl, h2, h3, by rw [e]; exact h4⟩
        rw [(hx x).2 hms, e, List.lookup_cons_self]
    · rw [List.mem_cons, not_or] at hm
      rw [(hx x).2 hm.2, List.lookup_cons, beq_false_of_ne hm.1]

theorem signLoop_panic (sk : Int) : ∀ (ms : List Int) (acc : List (Int × Option TwistPoint)),
    (∃ m ∈ ms, m + sk ≡ 0 [ZMOD bnOrder]) → signLoop (some sk) ms acc = .panic
  | [], _, ⟨_, h, _⟩ => absurd h List.not_mem_nil
  | m :: ms, acc, ⟨m', hm, h⟩ => by
    rw [signLoop]
    by_cases h0 : m + sk ≡ 0 [ZMOD bnOrder]
    · simp only [Res.ofOption, bind, Res.bind, C49_panic m sk h0]
    · obtain ⟨sig, i, h1, _⟩ := C49_sign m sk h0
      simp only [Res.ofOption, bind, Res.bind, h1]
      refine signLoop_panic sk ms _ ⟨m', ?_, h⟩
      rcases List.mem_cons.1 hm with e | e
      · exact absurd (e ▸ h) h0
      · exact e

theorem rep2_newInf : Rep2 (TwistPoint.new.setInfinity) ((0 : Int) • bnG2) := by
  rw [zero_zsmul]; exact rep2_infinity rfl

theorem infAdd_exp {a : TwistPoint} {k : Int} (ha : Rep2 a (k • bnG2)) :
    Rep2 ((TwistPoint.new.setInfinity).addSelf a) (k • bnG2) := by
  have h := addSelf_exp2 rep2_newInf ha (Or.inl rfl)
  rwa [zero_add] at h

theorem emod_order_nonneg (k : Int) : 0 ≤ k % bnOrder := Int.emod_nonneg _ (ne_of_gt bnOrder_pos)

end Verif
