import Verif.Model.BipSetup
import Verif.Props.Bp
import Verif.Props.Bip
import Verif.Props.P256

/-!
# C107: the default generators of the inner-product argument
-/

namespace Verif

/-- Numbers whose conversion to a string is U+FFFD: no code points, surrogates, and U+FFFD itself. -/
def Replaced (i : Int) : Prop := i < 0 ∨ 0x110000 ≤ i ∨ (0xD800 ≤ i ∧ i < 0xE000) ∨ i = 0xFFFD

private theorem byte_inj {a b : Nat} (ha : a < 256) (hb : b < 256) (h : UInt8.ofNat a = UInt8.ofNat b) : a = b := by
  have := congrArg UInt8.toNat h
  rwa [UInt8.toNat_ofNat', UInt8.toNat_ofNat', Nat.mod_eq_of_lt (by omega), Nat.mod_eq_of_lt (by omega)] at this

theorem utf8_inj {a b : Nat} (ha : a < 0x110000) (hb : b < 0x110000) (h : utf8 a = utf8 b) : a = b := by
  have hl := congrArg List.length h
  unfold utf8 at h hl
  by_cases a1 : a < 0x80
  · have b1 : b < 0x80 := by
      by_contra hc
      rw [if_pos a1, if_neg hc] at hl
      split at hl <;> (try split at hl) <;> simp at hl
    rw [if_pos a1, if_pos b1] at h
    exact byte_inj (by omega) (by omega) (List.cons.inj h).1
  · by_cases b1 : b < 0x80
    · rw [if_neg a1, if_pos b1] at hl
      split at hl <;> (try split at hl) <;> simp at hl
    · rw [if_neg a1, if_neg b1] at h hl
      by_cases a2 : a < 0x800 <;> by_cases b2 : b < 0x800 <;> simp only [a2, b2, if_true, if_false] at h hl
      · simp only [List.cons.injEq, and_true] at h
        have h1 := byte_inj (by omega) (by omega) h.1
        have h2 := byte_inj (by omega) (by omega) h.2
        omega
      · split at hl <;> simp at hl
      · split at hl <;> simp at hl
      · by_cases a3 : a < 0x10000 <;> by_cases b3 : b < 0x10000 <;> simp only [a3, b3, if_true, if_false] at h hl
        · simp only [List.cons.injEq, and_true] at h
          have h1 := byte_inj (by omega) (by omega) h.1
          have h2 := byte_inj (by omega) (by omega) h.2.1
          have h3 := byte_inj (by omega) (by omega) h.2.2
          omega
        · simp at hl
        · simp at hl
        · simp only [List.cons.injEq, and_true] at h
          have h1 := byte_inj (by omega) (by omega) h.1
          have h2 := byte_inj (by omega) (by omega) h.2.1
          have h3 := byte_inj (by omega) (by omega) h.2.2.1
          have h4 := byte_inj (by omega) (by omega) h.2.2.2
          omega

theorem validRune_iff (i : Int) : validRune i = true ↔ 0 ≤ i ∧ i < 0x110000 ∧ ¬ (0xD800 ≤ i ∧ i < 0xE000) := by
  simp only [validRune, Bool.and_eq_true, Bool.not_eq_true', Bool.and_eq_false_iff, decide_eq_true_eq, decide_eq_false_iff_not]
  omega

/-- C107: which indices have the same string. -/
theorem C107_rune (i j : Int) : runeText i = runeText j ↔ i = j ∨ (Replaced i ∧ Replaced j) := by
  have hbad : badRune = utf8 0xFFFD := by decide
  have key : ∀ i, ∃ c : Nat, runeText i = utf8 c ∧ c < 0x110000 ∧ (Replaced i → c = 0xFFFD) ∧ (¬ Replaced i → (c : Int) = i ∧ c ≠ 0xFFFD) := by
    intro i
    unfold runeText Replaced
    by_cases h : validRune i = true
    · rw [if_pos h]
      rw [validRune_iff] at h
      exact ⟨_, rfl, by omega, by omega, by omega⟩
    · rw [if_neg h, hbad]
      rw [validRune_iff] at h
      exact ⟨_, rfl, by omega, by omega, by omega⟩
  obtain ⟨c, e1, e2, e3, e4⟩ := key i
  obtain ⟨d, f1, f2, f3, f4⟩ := key j
  rw [e1, f1]
  constructor
  · intro h
    have := utf8_inj e2 f2 h
    by_cases hi : Replaced i
    · by_cases hj : Replaced j
      · exact .inr ⟨hi, hj⟩
      · have := e3 hi; have := f4 hj; omega
    · by_cases hj : Replaced j
      · have := f3 hj; have := e4 hi; omega
      · have := e4 hi; have := f4 hj; left; omega
  · rintro (rfl | ⟨h1, h2⟩)
    · rw [e1] at f1
      rw [← f1]
    · rw [e3 h1, f3 h2]

example : runeText 65 = ascii "A" ∧ runeText 300 = [0xC4, 0xAC] ∧ runeText 0x20AC = [0xE2, 0x82, 0xAC] ∧
    runeText 0x1F600 = [0xF0, 0x9F, 0x98, 0x80] ∧ runeText 65 ≠ runeText 66 ∧ runeText 55296 = runeText 57343 ∧ runeText (-1) = runeText 65533 :=
  ⟨by decide, by decide, by decide, by decide, fun h => by rcases (C107_rune _ _).1 h with h | ⟨h, -⟩ <;> simp [Replaced] at h,
    (C107_rune _ _).2 (.inr ⟨by unfold Replaced; omega, by unfold Replaced; omega⟩),
    (C107_rune _ _).2 (.inr ⟨by unfold Replaced; omega, by unfold Replaced; omega⟩)⟩

/-- For small indices the string is one byte, as `Setup` has it. -/
theorem runeText_small {i : Nat} (h : i < 128) : runeText i = runeString i := by
  rw [runeText, if_pos (by rw [validRune_iff]; omega), utf8, if_pos (by omega), Int.toNat_natCast, runeString]

theorem defaultGens_spec {E : Ext} (hE : E.Ok) (s : List UInt8) : ∀ (fuel i : Nat), ∃ r, defaultGens E s fuel i = .ok r ∧ r.length = fuel ∧
    ∀ j < fuel, ∃ o, r[j]? = some o ∧ mapToGroup E (SEEDH ++ s ++ runeText ((i + j : Nat) : Int)) = .ok o
  | 0, _ => ⟨[], rfl, rfl, fun j h => by omega⟩
  | fuel + 1, i => by
    obtain ⟨r, h1, h2, h3⟩ := defaultGens_spec hE s fuel (i + 1)
    obtain ⟨g, hg⟩ := mapToGroup_ok hE (SEEDH ++ s ++ runeText i)
    refine ⟨g :: r, by rw [defaultGens, hg, Res.ok_bind, h1, Res.ok_bind], by simp [h2], ?_⟩
    rintro (_ | j) hj
    · exact ⟨g, rfl, hg⟩
    · have := h3 j (by omega)
      rw [show i + 1 + j = i + (j + 1) by omega] at this
      exact this

/-- C107: the parameters for nil arguments: the numbers are kept, `P` is infinity, `H`, `u` and the generators are the results of
`MapToGroup` on their seeds. -/
theorem C107_default {E : Ext} (hE : E.Ok) (c : Option Int) (n : Int) (hn : 0 < n) :
    ∃ q gs hs, setupIP E none none none c n = .ok (some q) ∧ q.N = n ∧ q.Cc = c ∧ q.P = some P256.infinity ∧
      mapToGroup E SEEDH = .ok q.H ∧ mapToGroup E SEEDU = .ok q.Uu ∧ q.Gg = some gs ∧ q.Hh = some hs ∧
      (gs.length : Int) = n ∧ (hs.length : Int) = n ∧ ∀ i : Nat, (i : Int) < n →
        (∃ o, gs[i]? = some o ∧ mapToGroup E (SEEDH ++ ascii "g" ++ runeText i) = .ok o) ∧
        (∃ o, hs[i]? = some o ∧ mapToGroup E (SEEDH ++ ascii "h" ++ runeText i) = .ok o) := by
  obtain ⟨H, hH⟩ := mapToGroup_ok hE SEEDH
  obtain ⟨u, hu⟩ := mapToGroup_ok hE SEEDU
  obtain ⟨gs, g1, g2, g3⟩ := defaultGens_spec hE (ascii "g") n.toNat 0
  obtain ⟨hs, h1, h2, h3⟩ := defaultGens_spec hE (ascii "h") n.toNat 0
  refine ⟨{ N := n, Cc := c, Uu := u, H := H, Gg := some gs, Hh := some hs, P := some P256.infinity }, gs, hs, by rw [setupIP, if_neg (by omega)]; simp only [hH, g1, h1, hu, Res.ok_bind], rfl, rfl, rfl, hH, hu, rfl, rfl,
    by omega, by omega, fun i hi => ?_⟩
  have a := g3 i (by omega)
  have b := h3 i (by omega)
  rw [zero_add] at a b
  exact ⟨a, b⟩

/-- Four generators, as in the test of the inner-product argument. -/
example : ∃ q, setupIP (idealExt hashOne) none none none (some 142) 4 = .ok (some q) ∧ q.N = 4 ∧ q.Cc = some 142 := by
  obtain ⟨q, _, _, h1, h2, h3, _⟩ := C107_default (idealExt_ok hashOne (fun _ => rfl)) (some 142) 4 (by omega)
  exact ⟨q, h1, h2, h3⟩

/-- C107: with the arguments that `Prove` gives it the function is the one of C21 to C24. -/
theorem C107_given (E : Ext) (H : P256) (g h : List P256) (c n : Int) (o : Option IPParams)
    (hs : setupInnerProduct E H g h c n = .ok o) :
    ∃ q, setupIP E (some H) (some (g.map some)) (some (h.map some)) (some c) n = .ok q ∧
      (o = none ↔ q = none) ∧ ∀ p, o = some p → ∃ q', q = some q' ∧ q'.deref = some p := by
  unfold setupInnerProduct at hs
  unfold setupIP
  by_cases hn : n ≤ 0
  · rw [if_pos hn] at hs ⊢
    cases hs
    exact ⟨none, rfl, by simp, fun p h => by cases h⟩
  · rw [if_neg hn] at hs ⊢
    cases hu : mapToGroup E SEEDU with
    | panic => rw [hu] at hs; cases hs
    | ok u =>
      rw [hu, Res.ok_bind] at hs
      cases u with
      | none => cases hs
      | some u =>
        rw [Res.ofOption_some, Res.ok_bind] at hs
        cases hs
        refine ⟨_, rfl, by simp, fun p hp => ⟨_, rfl, ?_⟩⟩
        cases hp
        have hm : ∀ l : List P256, (l.map some).mapM id = some l := fun l => by
          induction l with
          | nil => rfl
          | cons a l ih => rw [List.map_cons, List.mapM_cons, ih]; rfl
        simp only [GoIPParams.deref, derefs, Option.getD_some, hm]
        rfl

example : ∃ o q p, setupInnerProduct (idealExt hashOne) exG [exG, exG] [exG, exG] 11 2 = .ok o ∧
    setupIP (idealExt hashOne) (some exG) (some [some exG, some exG]) (some [some exG, some exG]) (some 11) 2 = .ok (some q) ∧
    q.deref = some p ∧ o = some p := by
  obtain ⟨u, hu⟩ := mapToGroup_hashOne SEEDU
  have h : setupInnerProduct (idealExt hashOne) exG [exG, exG] [exG, exG] 11 2 =
      .ok (some { N := 2, Cc := 11, Uu := u, H := exG, Gg := [exG, exG], Hh := [exG, exG], P := P256.infinity }) := by
    rw [setupInnerProduct, if_neg (by omega), hu]; rfl
  obtain ⟨q, h1, -, h3⟩ := C107_given _ _ _ _ _ _ _ h
  obtain ⟨q', rfl, h4⟩ := h3 _ rfl
  exact ⟨_, q', _, h, h1, h4, rfl⟩

theorem mapM_id_eq {α : Type} : ∀ {l : List (Option α)} {r : List α}, l.mapM id = some r → l = r.map some
  | [], r, h => by cases h; rfl
  | a :: l, r, h => by
    rw [List.mapM_cons] at h
    cases a with
    | none => cases h
    | some a =>
      cases hl : l.mapM id with
      | none => rw [hl] at h; cases h
      | some t =>
        rw [hl] at h
        cases h
        rw [mapM_id_eq hl]
        rfl

/-- C107: if `MapToGroup` finds all default points, proofs for the default parameters are accepted whenever the product is right. -/
theorem C107_complete {E : Ext} (hE : E.Ok) (k : Nat) (c : Int) {q : GoIPParams} {params : IPParams}
    (hq : setupIP E none none none (some c) (2 ^ k : Nat) = .ok (some q)) (hd : q.deref = some params) (a b : List Int)
    (la : a.length = 2 ^ k) (lb : b.length = 2 ^ k) (hc : c ≡ Spec.dot a b [ZMOD ORDER]) :
    ∃ P, commitInnerProduct E params.Gg params.Hh a b = .ok P ∧
      ((∀ s, ¬ ORDER ∣ ((setBytes (E.sha256 s) : Nat) : Int)) → ∃ proof, proveInnerProduct E a b P params = .ok (some proof)) ∧
      ∀ proof, proveInnerProduct E a b P params = .ok (some proof) → ∃ P', ipVerify E proof = .ok (true, P') := by
  have hk : (0 : Int) < (2 ^ k : Nat) := by exact_mod_cast Nat.two_pow_pos k
  obtain ⟨q', gs, hs, e1, e2, e3, e4, e5, e6, e7, e8, e9, e10, e11⟩ := C107_default hE (some c) (2 ^ k : Nat) hk
  rw [hq] at e1
  injection e1 with e1
  injection e1 with e1
  subst e1
  simp only [GoIPParams.deref, derefs, e3, e4, e7, e8, Option.getD_some, Option.bind_eq_bind, Option.bind_some, Option.bind_eq_some_iff] at hd
  obtain ⟨u, hu, H, hH, g, hg, h, hh, hd⟩ := hd
  injection hd with hd
  subst hd
  have hg := mapM_id_eq hg
  have hh := mapM_id_eq hh
  have lg : g.length = 2 ^ k := by rw [hg, List.length_map] at e9; exact_mod_cast e9
  have lh : h.length = 2 ^ k := by rw [hh, List.length_map] at e10; exact_mod_cast e10
  have pg : ArePoints g := fun p hp => by
    obtain ⟨i, hi, rfl⟩ := List.getElem_of_mem hp
    obtain ⟨⟨o, o1, o2⟩, -⟩ := e11 i (by rw [← lg]; exact_mod_cast hi)
    rw [hg, List.getElem?_map, List.getElem?_eq_getElem hi] at o1
    cases o1
    obtain ⟨Q, hQ⟩ := mapToGroup_isPoint hE o2
    exact ⟨Q, .inr hQ⟩
  have ph : ArePoints h := fun p hp => by
    obtain ⟨i, hi, rfl⟩ := List.getElem_of_mem hp
    obtain ⟨-, ⟨o, o1, o2⟩⟩ := e11 i (by rw [← lh]; exact_mod_cast hi)
    rw [hh, List.getElem?_map, List.getElem?_eq_getElem hi] at o1
    cases o1
    obtain ⟨Q, hQ⟩ := mapToGroup_isPoint hE o2
    exact ⟨Q, .inr hQ⟩
  have pu : IsPoint u := by
    rw [hu] at e6
    obtain ⟨Q, hQ⟩ := mapToGroup_isPoint hE e6
    exact ⟨Q, .inr hQ⟩
  obtain ⟨ga, v1⟩ := vectorExp_some (E := E) (a := g) (b := a) (by rw [lg, la])
  obtain ⟨hb, v2⟩ := vectorExp_some (E := E) (a := h) (b := b) (by rw [lh, lb])
  have hP : commitInnerProduct E g h a b = .ok (ga.multiply E hb) := by rw [commitInnerProduct, v1, v2]; rfl
  refine ⟨_, hP, fun hs => (C21_returns hE _ _ _ _).2 k la lb lg lh (by simp [e2]) hs, fun proof hp => ?_⟩
  exact C21_complete hE (params := { N := q.N, Cc := c, Uu := u, H := H, Gg := g, Hh := h, P := P256.infinity })
    la lb lg lh pg ph pu hc hP hp

/-- The vectors of the test of the inner-product argument. -/
example : ∃ q params P proof P', setupIP (idealExt hashOne) none none none (some 142) 4 = .ok (some q) ∧ q.deref = some params ∧
    commitInnerProduct (idealExt hashOne) params.Gg params.Hh [2, -1, 10, 6] [1, 2, 10, 7] = .ok P ∧
    proveInnerProduct (idealExt hashOne) [2, -1, 10, 6] [1, 2, 10, 7] P params = .ok (some proof) ∧
    ipVerify (idealExt hashOne) proof = .ok (true, P') := by
  have hE := idealExt_ok hashOne (fun _ => rfl)
  obtain ⟨q, gs, hs, e1, e2, e3, e4, e5, e6, e7, e8, e9, e10, e11⟩ := C107_default hE (some 142) (2 ^ 2 : Nat) (by decide)
  have hl : ∀ l : List (Option P256), (∀ i, i < l.length → ∃ m, ∃ o, l[i]? = some o ∧ mapToGroup (idealExt hashOne) m = .ok o) →
      ∃ r, l.mapM id = some r := by
    intro l
    induction l with
    | nil => exact fun _ => ⟨[], rfl⟩
    | cons a l ih =>
      intro h
      obtain ⟨r, hr⟩ := ih fun i hi => h (i + 1) (by simpa using hi)
      obtain ⟨m, o, ho, hm⟩ := h 0 (by simp)
      obtain ⟨u, hu⟩ := mapToGroup_hashOne m
      cases ho
      obtain rfl := Res.ok.inj (hm.symm.trans hu)
      exact ⟨u :: r, by rw [List.mapM_cons, hr]; rfl⟩
  obtain ⟨g, hg⟩ := hl gs fun i hi => ⟨_, (e11 i (by omega)).1⟩
  obtain ⟨h, hh⟩ := hl hs fun i hi => ⟨_, (e11 i (by omega)).2⟩
  obtain ⟨H, hH⟩ := mapToGroup_hashOne SEEDH
  obtain ⟨u, hu⟩ := mapToGroup_hashOne SEEDU
  have hH := Res.ok.inj (e5.symm.trans hH)
  have hu := Res.ok.inj (e6.symm.trans hu)
  have hd : q.deref = some { N := q.N, Cc := 142, Uu := u, H := H, Gg := g, Hh := h, P := P256.infinity } := by
    simp only [GoIPParams.deref, derefs, e3, e4, e7, e8, Option.getD_some, hg, hh, hH, hu]
    rfl
  obtain ⟨P, p1, p2, p3⟩ := C107_complete hE 2 142 e1 hd [2, -1, 10, 6] [1, 2, 10, 7] rfl rfl (by decide)
  obtain ⟨proof, hp⟩ := p2 hashOne_order
  obtain ⟨P', hv⟩ := p3 proof hp
  exact ⟨q, _, P, proof, P', e1, hd, p1, hp, hv⟩

/-- C107: an error for `N ≤ 0`, whatever the other arguments. -/
theorem C107_error (E : Ext) (H : Option P256) (g h : Option (List (Option P256))) (c : Option Int) (n : Int) (hn : n ≤ 0) :
    setupIP E H g h c n = .ok none := by rw [setupIP, if_pos hn]

example (E : Ext) : setupIP E none none none (some 142) (-4) = .ok none := C107_error E _ _ _ _ _ (by decide)

/-- C107: the defaults are the generators of `Setup` for the range end `2^N`. -/
theorem C107_same {E : Ext} (hE : E.Ok) (nan : Int) (b : BitVec 64) (hb : b.toInt ≠ -2 ^ 63) {s : BPSetup}
    (hs : setup E nan b = .ok (some s)) (c : Option Int) :
    ∃ q, setupIP E none none none c s.N = .ok (some q) ∧ q.H = s.H ∧ q.Gg = some s.Gg ∧ q.Hh = some s.Hh := by
  obtain ⟨t1, t2⟩ := C56_table hE nan b hb hs
  have hp : isPowerOfTwo b = true := by
    by_contra h
    rw [setup, if_pos (by simp [h])] at hs
    cases hs
  obtain ⟨k, hk, hbk⟩ := ((C09_isPowerOfTwo b).1 hp).resolve_right hb
  obtain ⟨hN, hl1, hl2⟩ : ∃ n : Nat, s.N = n ∧ 0 < n ∧ n ≤ 32 ∧ s.Gg.length = n ∧ s.Hh.length = n := by
    rcases setup_pow hE nan hk hbk with ⟨h1, _⟩ | ⟨h1, r, H, h3, h4, h2⟩
    · rw [h1] at hs; cases hs
    · obtain ⟨r', e, l1, l2, _⟩ := setupLoop_spec hE k 0
      rw [h3] at e
      injection e with e
      subst e
      rw [h2] at hs
      injection hs with hs
      injection hs with hs
      subst hs
      exact ⟨k, rfl, by omega, by omega, l1, l2⟩
  obtain ⟨n0, n1, l1, l2⟩ := hl2
  obtain ⟨q, gs, hs', e1, e2, e3, e4, e5, e6, e7, e8, e9, e10, e11⟩ := C107_default hE c s.N (by omega)
  refine ⟨q, e1, Res.ok.inj (e5.symm.trans t1), ?_, ?_⟩
  · rw [e7]
    congr 1
    refine List.ext_getElem? fun i => ?_
    by_cases hi : i < hN
    · obtain ⟨⟨o, o1, o2⟩, _⟩ := e11 i (by omega)
      obtain ⟨⟨o', o3, o4⟩, _⟩ := t2 i (by omega)
      rw [runeText_small (by omega)] at o2
      rw [Seed.bytes, o2] at o4
      rw [o1, o3, Res.ok.inj o4]
    · rw [List.getElem?_eq_none (by omega), List.getElem?_eq_none (by omega)]
  · rw [e8]
    congr 1
    refine List.ext_getElem? fun i => ?_
    by_cases hi : i < hN
    · obtain ⟨_, ⟨o, o1, o2⟩⟩ := e11 i (by omega)
      obtain ⟨_, ⟨o', o3, o4⟩⟩ := t2 i (by omega)
      rw [runeText_small (by omega)] at o2
      rw [Seed.bytes, o2] at o4
      rw [o1, o3, Res.ok.inj o4]
    · rw [List.getElem?_eq_none (by omega), List.getElem?_eq_none (by omega)]

example : ∃ s q, setup (idealExt hashOne) 0 (BitVec.ofInt 64 (2 ^ 32)) = .ok (some s) ∧ s.N = 32 ∧
    setupIP (idealExt hashOne) none none none (some 5) 32 = .ok (some q) ∧ q.Gg = some s.Gg := by
  have hE := idealExt_ok hashOne (fun _ => rfl)
  obtain ⟨s, _, hs, h1, _⟩ := C25_setup hE 0 0 0
  obtain ⟨q, h2, -, h3, -⟩ := C107_same hE 0 _ (by decide) hs (some 5)
  exact ⟨s, q, hs, h1, by rw [← h1]; exact h2, h3⟩

/-- C107: the seed of an index below 55296 is different from those of all other indices, of the other table, of `H` and of `u`. -/
theorem C107_distinct (i j : Int) (hi : 0 ≤ i) (hi' : i < 55296) :
    (∀ s, SEEDH ++ s ++ runeText i = SEEDH ++ s ++ runeText j → i = j) ∧
    SEEDH ++ ascii "g" ++ runeText i ≠ SEEDH ++ ascii "h" ++ runeText j ∧
    (∀ l ∈ ["g", "h"], SEEDH ++ ascii l ++ runeText i ≠ SEEDH ∧ SEEDH ++ ascii l ++ runeText i ≠ SEEDU) := by
  refine ⟨fun s h => ?_, fun h => ?_, fun l hl => ⟨fun h => ?_, fun h => ?_⟩⟩
  · rcases (C107_rune i j).1 (List.append_cancel_left h) with h | ⟨h, -⟩
    · exact h
    · unfold Replaced at h
      omega
  · rw [List.append_assoc, List.append_assoc] at h
    have := List.append_cancel_left h
    have h2 := (List.cons.inj (show (103 : UInt8) :: runeText i = 104 :: runeText j from this)).1
    exact absurd h2 (by decide)
  · have := congrArg List.length h
    have hl' : (ascii l).length = 1 := by
      simp only [List.mem_cons, List.not_mem_nil, or_false] at hl
      rcases hl with rfl | rfl <;> rfl
    simp only [List.length_append, hl'] at this
    omega
  · have h0 := congrArg (fun l => l[35]?) h
    rw [List.append_assoc] at h0
    rw [List.getElem?_append_left (by decide)] at h0
    exact absurd h0 (by decide)

example : SEEDH ++ ascii "g" ++ runeText 200 ≠ SEEDH ++ ascii "g" ++ runeText 50000 := fun h =>
  absurd ((C107_distinct 200 50000 (by omega) (by omega)).1 _ h) (by omega)

/-- C107: from `N = 55298` on two generators of each table are the same. -/
theorem C107_repeated {E : Ext} (hE : E.Ok) (c : Option Int) (n : Int) (hn : 55298 ≤ n) :
    ∃ q gs hs, setupIP E none none none c n = .ok (some q) ∧ q.Gg = some gs ∧ q.Hh = some hs ∧
      (∃ o, gs[55296]? = some o ∧ gs[55297]? = some o) ∧ ∃ o, hs[55296]? = some o ∧ hs[55297]? = some o := by
  obtain ⟨q, gs, hs, e1, -, -, -, -, -, e7, e8, -, -, e11⟩ := C107_default hE c n (by omega)
  have hr : runeText ((55297 : Nat) : Int) = runeText ((55296 : Nat) : Int) :=
    (C107_rune _ _).2 (.inr ⟨by unfold Replaced; omega, by unfold Replaced; omega⟩)
  obtain ⟨⟨o1, a1, a2⟩, ⟨o2, b1, b2⟩⟩ := e11 55296 (by omega)
  obtain ⟨⟨o3, a3, a4⟩, ⟨o4, b3, b4⟩⟩ := e11 55297 (by omega)
  rw [hr] at a4 b4
  obtain rfl := Res.ok.inj (a2.symm.trans a4)
  obtain rfl := Res.ok.inj (b2.symm.trans b4)
  exact ⟨q, gs, hs, e1, e7, e8, ⟨o1, a1, a3⟩, ⟨o2, b1, b3⟩⟩

example : ∃ q gs o, setupIP (idealExt hashOne) none none none (some 0) 65536 = .ok (some q) ∧ q.Gg = some gs ∧
    gs[55296]? = some o ∧ gs[55297]? = some o := by
  obtain ⟨q, gs, _, h1, h2, -, ⟨o, h3, h4⟩, -⟩ := C107_repeated (idealExt_ok hashOne (fun _ => rfl)) (some 0) 65536 (by omega)
  exact ⟨q, gs, o, h1, h2, h3, h4⟩

private theorem sum_set {Q : List Secp} {a : List Int} {i : Nat} {P : Secp} {x : Int} (hP : Q[i]? = some P) (hx : a[i]? = some x) (y : Int) :
    (List.zipWith (fun (n : Int) P => n • P) (a.set i y) Q).sum = (List.zipWith (fun (n : Int) P => n • P) a Q).sum + (y - x) • P := by
  induction i generalizing Q a with
  | zero =>
    cases Q with
    | nil => cases hP
    | cons Q0 Q =>
      cases a with
      | nil => cases hx
      | cons a0 a =>
        cases hP; cases hx
        simp only [List.set_cons_zero, List.zipWith_cons_cons, List.sum_cons, sub_smul]
        abel
  | succ i ih =>
    cases Q with
    | nil => cases hP
    | cons Q0 Q =>
      cases a with
      | nil => cases hx
      | cons a0 a =>
        simp only [List.set_cons_succ, List.zipWith_cons_cons, List.sum_cons]
        rw [ih hP hx]
        abel

/-- C107: a table with a repeated generator does not bind: an amount can be moved between the two components and the commitment of the
inner-product argument stays the same group element. -/
theorem C107_binding {E : Ext} (hE : E.Ok) (g h : List P256) (hg : ArePoints g) (hh : ArePoints h) (a b : List Int)
    (la : a.length = g.length) (lb : b.length = h.length) (i j : Nat) (hij : i ≠ j) {G : P256} (hi : g[i]? = some G) (hj : g[j]? = some G)
    {x y : Int} (hx : a[i]? = some x) (hy : a[j]? = some y) (t : Int) :
    ∃ P P' Q, commitInnerProduct E g h a b = .ok P ∧ commitInnerProduct E g h ((a.set i (x + t)).set j (y - t)) b = .ok P' ∧
      Rep P Q ∧ Rep P' Q := by
  obtain ⟨Qg, rg⟩ := hg.reps
  obtain ⟨Qh, rh⟩ := hh.reps
  obtain ⟨r, e1, e2⟩ := (C20_vectorExp hE rg a).2 la.symm
  obtain ⟨r', f1, f2⟩ := (C20_vectorExp hE rg ((a.set i (x + t)).set j (y - t))).2 (by simp [la])
  obtain ⟨s, k1, k2⟩ := (C20_vectorExp hE rh b).2 lb.symm
  have hq : ∀ m, g[m]? = some G → ∃ Q, Qg[m]? = some Q ∧ Rep G Q := fun m hm => by
    obtain ⟨hm', -⟩ := List.getElem?_eq_some_iff.1 hm
    have hm2 : m < Qg.length := by rw [← rg.length_eq]; exact hm'
    refine ⟨Qg[m], List.getElem?_eq_getElem hm2, ?_⟩
    have := (List.forall₂_iff_get.1 rg).2 m hm' hm2
    rw [List.getElem?_eq_getElem hm'] at hm
    cases hm
    exact this
  obtain ⟨Q1, q1, q2⟩ := hq i hi
  obtain ⟨Q2, q3, q4⟩ := hq j hj
  obtain rfl : Q1 = Q2 := q2.unique q4
  have hs : (List.zipWith (fun (n : Int) P => n • P) ((a.set i (x + t)).set j (y - t)) Qg).sum =
      (List.zipWith (fun (n : Int) P => n • P) a Qg).sum := by
    rw [sum_set q3 (x := y) (by rw [List.getElem?_set_ne hij]; exact hy), sum_set q1 hx, add_sub_cancel_left, sub_sub_cancel_left, neg_smul]
    abel
  rw [hs] at f2
  exact ⟨_, _, _, by rw [commitInnerProduct, e1, k1]; rfl, by rw [commitInnerProduct, f1, k1]; rfl, (C13_multiply hE e2 k2), (C13_multiply hE f2 k2)⟩

/-- Two different vectors with the same commitment. -/
example : ∃ P P' Q, commitInnerProduct (idealExt hashOne) (exParams 0).Gg (exParams 0).Hh [1, 2] [3, 4] = .ok P ∧
    commitInnerProduct (idealExt hashOne) (exParams 0).Gg (exParams 0).Hh [1 + 7, 2 - 7] [3, 4] = .ok P' ∧ Rep P Q ∧ Rep P' Q :=
  C107_binding (idealExt_ok hashOne (fun _ => rfl)) _ _ (exParams_points 0).1 (exParams_points 0).2 [1, 2] [3, 4] rfl rfl 0 1 (by decide)
    rfl rfl rfl rfl 7

end Verif
