import Verif.Model.GoVerify
import Verif.Lemmas.BipPanic
import Verif.Lemmas.Vec

/-! # `Verify` on proofs with and without nil pointers -/

namespace Verif

@[simp] theorem goScalarMult_some (E : Ext) (a : P256) (n : Int) :
    goScalarMult E (some a) (some n) = .ok (a.scalarMult E n) := by
  simp only [goScalarMult, Res.ofOption_some, Res.ok_bind]
  split
  · rename_i h; rw [P256.scalarMult, if_pos h]
  · rfl

theorem goVectorExpLoop_some (E : Ext) : ∀ (a : List P256) (b : List Int) (r : P256),
    goVectorExpLoop E (a.map some) b r = .ok (vectorExpLoop E a b r)
  | [], _, _ => by simp [goVectorExpLoop, vectorExpLoop]
  | _ :: _, [], _ => by simp [goVectorExpLoop, vectorExpLoop]
  | p :: a, n :: b, r => by
    simp only [List.map_cons, goVectorExpLoop, goScalarMult_some, Res.ok_bind, vectorExpLoop]
    exact goVectorExpLoop_some E a b _

theorem goVectorExp_some (E : Ext) (a : List P256) (b : List Int) :
    goVectorExp E (a.map some) b = .ok (vectorExp E a b) := by
  rw [goVectorExp, vectorExp, List.length_map]
  split
  · rfl
  · rw [goVectorExpLoop_some]; rfl

theorem goVectorScalarExp_some (E : Ext) (n : Int) : ∀ a : List P256,
    goVectorScalarExp E (some n) (a.map some) = .ok ((vectorScalarExp E a n).map some)
  | [] => rfl
  | p :: a => by
    simp only [List.map_cons, goVectorScalarExp, goScalarMult_some, Res.ok_bind, goVectorScalarExp_some E n a,
      vectorScalarExp]

theorem goVectorECAddLoop_some (E : Ext) : ∀ a b : List P256,
    goVectorECAddLoop E (a.map some) (b.map some) = .ok ((List.zipWith (fun x y => x.multiply E y) a b).map some)
  | [], _ => by simp [goVectorECAddLoop]
  | _ :: _, [] => by simp [goVectorECAddLoop]
  | p :: a, q :: b => by
    simp only [List.map_cons, goVectorECAddLoop, goMultiply, Res.ofOption_some, Res.ok_bind,
      goVectorECAddLoop_some E a b, List.zipWith_cons_cons]

theorem goVectorECAdd_some (E : Ext) (a b : List P256) :
    goVectorECAdd E (a.map some) (b.map some) = .ok (((vectorECAdd E a b).getD []).map some) := by
  rw [goVectorECAdd, vectorECAdd, List.length_map, List.length_map]
  split
  · rfl
  · rw [goVectorECAddLoop_some]; rfl

theorem idx_map_some (l : List P256) (i : Nat) : idx (l.map some) i = (idx l i).bind fun p => .ok (some p) := by
  rw [idx, idx, List.getElem?_map]
  cases l[i]? <;> rfl

theorem goUpdateGeneratorsLoop_some (E : Ext) (Hh : List P256) (yi : Int) : ∀ (fuel i : Nat) (e : Int),
    goUpdateGeneratorsLoop E (Hh.map some) (some yi) fuel i (some e) =
      (updateGeneratorsLoop E Hh yi fuel i e).bind fun r => .ok (r.map some)
  | 0, _, _ => rfl
  | fuel + 1, i, e => by
    rw [goUpdateGeneratorsLoop, updateGeneratorsLoop, idx_map_some]
    cases idx Hh i with
    | panic => rfl
    | ok p =>
      show (goScalarMult E (some p) (some e) >>= _) = _
      simp only [goScalarMult_some, Res.ok_bind, Res.ofOption_some, goUpdateGeneratorsLoop_some E Hh yi fuel]
      cases updateGeneratorsLoop E Hh yi fuel (i + 1) (e * yi) <;> rfl

theorem goUpdateGeneratorsLoop_none (E : Ext) (Hh : List P256) (fuel i : Nat) :
    goUpdateGeneratorsLoop E (Hh.map some) none (fuel + 1) i none = .panic := by
  rw [goUpdateGeneratorsLoop, idx_map_some]
  cases idx Hh i with
  | panic => rfl
  | ok p =>
    show (goScalarMult E (some p) none >>= _) = _
    cases goScalarMult E (some p) none <;> rfl

theorem goUpdateGenerators_some (E : Ext) (Hh : List P256) (y n : Int) :
    goUpdateGenerators E (Hh.map some) y n = (updateGenerators E Hh y n).bind fun r => .ok (r.map some) := by
  rw [goUpdateGenerators, updateGenerators]
  split
  · rfl
  · rename_i hn
    rw [idx_map_some]
    cases idx Hh 0 with
    | panic => rfl
    | ok p =>
      show (goUpdateGeneratorsLoop E _ _ _ _ _ >>= _) = Res.bind (if _ then _ else _) _
      split
      · rename_i h1; rw [h1]; rfl
      · rename_i h1
        obtain ⟨k, hk⟩ : ∃ k, n.toNat - 1 = k + 1 := ⟨n.toNat - 2, by omega⟩
        cases modInverse y ORDER with
        | none => rw [hk, goUpdateGeneratorsLoop_none]; rfl
        | some yi =>
          rw [goUpdateGeneratorsLoop_some]
          simp only [Res.ofOption_some, Res.ok_bind]
          cases updateGeneratorsLoop E Hh yi (n.toNat - 1) 1 yi <;> rfl

theorem sliceTo_map_some (l : List P256) (n : Int) :
    sliceTo (l.map some) n = (sliceTo l n).bind fun r => .ok (r.map some) := by
  rw [sliceTo, sliceTo, List.length_map]
  split
  · rfl
  · rw [← List.map_take]; rfl

theorem sliceFrom_map_some (l : List P256) (n : Int) :
    sliceFrom (l.map some) n = (sliceFrom l n).bind fun r => .ok (r.map some) := by
  rw [sliceFrom, sliceFrom, List.length_map]
  split
  · rfl
  · rw [← List.map_drop]; rfl

/-- The result of the loop as pointers. -/
def loopPtr (r : List P256 × List P256 × P256) : List (Option P256) × List (Option P256) × Option P256 :=
  (r.1.map some, r.2.1.map some, some r.2.2)

theorem Invertible.head {E : Ext} {L R : P256} {Ls Rs : List P256} (h : Invertible E (L :: Ls) (R :: Rs)) :
    ¬ ORDER ∣ (hashBP E L R).1 ∧ Invertible E Ls Rs :=
  ⟨h 0 L R rfl rfl, fun i L' R' h1 h2 => h (i + 1) L' R' h1 h2⟩

theorem goIpVerifyLoop_some (E : Ext) : ∀ (Ls Rs g h : List P256) (P : P256) (n : Int), Invertible E Ls Rs →
    goIpVerifyLoop E (Ls.map some) (Rs.map some) (g.map some) (h.map some) (some P) n =
      (ipVerifyLoop E Ls Rs g h P n).bind fun r => .ok (loopPtr r)
  | [], _, _, _, _, _, _ => by simp [goIpVerifyLoop, ipVerifyLoop, loopPtr, Res.bind]
  | _ :: _, [], _, _, _, _, _ => rfl
  | L :: Ls, R :: Rs, g, h, P, n, hi => by
    obtain ⟨hx, hi'⟩ := hi.head
    obtain ⟨xi, exi⟩ := modInverse_order_exists hx
    have hx2 : ¬ ORDER ∣ ((hashBP E L R).1 * (hashBP E L R).1) % ORDER := by
      rw [← fn_eq_zero] at hx ⊢
      rw [fn_emod, Int.cast_mul]
      exact mul_ne_zero hx hx
    obtain ⟨xi2, exi2⟩ := modInverse_order_exists hx2
    simp only [List.map_cons, goIpVerifyLoop, ipVerifyLoop, goHashBP, Res.ofOption_some, Res.ok_bind, exi, exi2,
      sliceTo_map_some, sliceFrom_map_some]
    cases sliceTo g (n.tdiv 2) with
    | panic => rfl
    | ok gL =>
    cases sliceFrom g (n.tdiv 2) with
    | panic => rfl
    | ok gR =>
    cases sliceTo h (n.tdiv 2) with
    | panic =>
      simp only [Res.bind, Res.ok_bind, Res.panic_bind, goVectorScalarExp_some, goVectorECAdd_some]
    | ok hL =>
    cases sliceFrom h (n.tdiv 2) with
    | panic =>
      simp only [Res.bind, Res.ok_bind, Res.panic_bind, goVectorScalarExp_some, goVectorECAdd_some]
    | ok hR =>
      simp only [Res.bind, Res.ok_bind, goVectorScalarExp_some, goVectorECAdd_some, goScalarMult_some, goMultiply,
        Res.ofOption_some]
      exact goIpVerifyLoop_some E Ls Rs _ _ _ _ hi'

theorem points_getD (l : List P256) : (points l).getD [] = l.map some := by
  rw [points]
  split
  · rename_i h; rw [h]; rfl
  · rfl

theorem goIpVerify_toGo (E : Ext) (p : IPProof) (hi : Invertible E p.Ls p.Rs) : goIpVerify E p.toGo = ipVerify E p := by
  rw [goIpVerify, ipVerify]
  simp only [IPProof.toGo, IPParams.toGo, points_getD]
  rw [goIpVerifyLoop_some E _ _ _ _ _ _ hi]
  cases ipVerifyLoop E p.Ls p.Rs p.Params.Gg p.Params.Hh p.Params.P p.N with
  | panic => rfl
  | ok r =>
    obtain ⟨g, h, P⟩ := r
    simp only [Res.bind, loopPtr, Res.ok_bind, Res.ofOption_some, idx_map_some]
    cases idx g 0 with
    | panic => rfl
    | ok g0 =>
    cases idx h 0 with
    | panic => rfl
    | ok h0 =>
      simp only [Res.bind, Res.ok_bind, goScalarMult_some]

theorem goVerify_toGo (E : Ext) (p : BPProof) (hi : Invertible E p.IP.Ls p.IP.Rs) : goVerify E p.toGo = bpVerify E p := by
  rw [goVerify, bpVerify]
  simp only [BPProof.toGo, points_getD, goHashBP, Res.ofOption_some, Res.ok_bind, goUpdateGenerators_some, goCommitG1,
    goScalarBaseMult, goScalarMult_some]
  cases hu : updateGenerators E p.Params.Hh (hashBP E p.A p.S).1 p.Params.N with
  | panic => rfl
  | ok hp =>
  simp only [Res.bind, Res.ok_bind]
  cases delta p.Params.N (hashBP E p.A p.S).1 (hashBP E p.A p.S).2 with
  | panic => rfl
  | ok d =>
  have hN : ¬ p.Params.N < 0 := by
    intro hc
    rw [updateGenerators, if_pos (by omega)] at hu
    cases hu
  rw [vectorCopy, if_neg hN, vectorCopy, if_neg hN, powerOf, if_neg hN, powerOf, if_neg hN]
  simp only [Res.ok_bind, goAdd, Res.ofOption_some, goVectorExp_some]
  cases vectorExp E p.Params.Gg _ with
  | none => rfl
  | some gp =>
  simp only [Res.ok_bind, Res.ofOption_some]
  cases vectorExp E hp _ with
  | none => rfl
  | some hx =>
  simp only [Res.ok_bind, Res.ofOption_some, goMultiply, goIpVerify_toGo E p.IP hi]
  rfl

/-! ### When `Verify` panics -/

theorem updateGeneratorsLoop_ok_iff {E : Ext} {Hh : List P256} {yi : Int} : ∀ (fuel i : Nat) (e : Int),
    (∃ r, updateGeneratorsLoop E Hh yi fuel i e = .ok r ∧ r.length = fuel) ↔ fuel = 0 ∨ i + fuel ≤ Hh.length
  | 0, _, _ => by simp [updateGeneratorsLoop]
  | fuel + 1, i, e => by
    have ih := updateGeneratorsLoop_ok_iff (E := E) (Hh := Hh) (yi := yi) fuel (i + 1) (e * yi)
    simp only [updateGeneratorsLoop, Res.bind_eq_ok, idx, res_ofOption_ok]
    constructor
    · rintro ⟨r, ⟨hi, h1, r', h2, h3⟩, h4⟩
      have := (List.getElem?_eq_some_iff.1 h1).1
      cases h3
      have := ih.1 ⟨r', h2, by simpa using h4⟩
      omega
    · intro h
      obtain ⟨r, h1, h2⟩ := ih.2 (by omega)
      exact ⟨_, ⟨Hh[i]'(by omega), List.getElem?_eq_getElem (by omega), r, h1, rfl⟩, by simp [h2]⟩

theorem updateGeneratorsLoop_length {E : Ext} {Hh : List P256} {yi : Int} : ∀ {fuel i : Nat} {e : Int} {r : List P256},
    updateGeneratorsLoop E Hh yi fuel i e = .ok r → r.length = fuel
  | 0, _, _, r, h => by simp [updateGeneratorsLoop] at h; simp [← h]
  | fuel + 1, i, e, r, h => by
    simp only [updateGeneratorsLoop, Res.bind_eq_ok] at h
    obtain ⟨_, _, r', h2, h3⟩ := h
    cases h3
    simp [updateGeneratorsLoop_length h2]

theorem updateGenerators_ok_iff {E : Ext} {Hh : List P256} {y n : Int} :
    (∃ r, updateGenerators E Hh y n = .ok r ∧ (r.length : Int) = n) ↔
      1 ≤ n ∧ n ≤ Hh.length ∧ (n = 1 ∨ ¬ ORDER ∣ y) := by
  rw [updateGenerators]
  by_cases h0 : n ≤ 0
  · rw [if_pos h0]
    constructor
    · rintro ⟨_, h, _⟩; cases h
    · rintro ⟨h, _⟩; omega
  · rw [if_neg h0]
    simp only [Res.bind_eq_ok, idx, res_ofOption_ok]
    by_cases h1 : n = 1
    · subst h1
      simp only [if_true]
      constructor
      · rintro ⟨r, ⟨p, hp, _⟩, _⟩
        have := (List.getElem?_eq_some_iff.1 hp).1
        exact ⟨le_rfl, by omega, .inl trivial⟩
      · rintro ⟨_, h, _⟩
        exact ⟨_, ⟨Hh[0]'(by omega), List.getElem?_eq_getElem (by omega), rfl⟩, by simp⟩
    · simp only [h1, if_false, Res.bind_eq_ok, res_ofOption_ok]
      constructor
      · rintro ⟨r, ⟨p, hp, yi, hyi, r', hr', hr⟩, hl⟩
        have := (List.getElem?_eq_some_iff.1 hp).1
        have := (updateGeneratorsLoop_ok_iff _ _ _).1 ⟨r', hr', updateGeneratorsLoop_length hr'⟩
        refine ⟨by omega, by omega, .inr fun hd => ?_⟩
        rw [modInverse_order_none.2 hd] at hyi; cases hyi
      · rintro ⟨_, h, hd⟩
        obtain ⟨yi, hyi⟩ := modInverse_order_exists (hd.resolve_left id)
        obtain ⟨r', hr', hl⟩ := (updateGeneratorsLoop_ok_iff (E := E) (Hh := Hh) (yi := yi) (n.toNat - 1) 1 yi).2
          (by omega)
        refine ⟨_, ⟨Hh[0]'(by omega), List.getElem?_eq_getElem (by omega), yi, hyi, r', hr', rfl⟩, ?_⟩
        simp only [List.length_cons, hl]
        omega

theorem updateGenerators_length {E : Ext} {Hh : List P256} {y n : Int} {r : List P256}
    (h : updateGenerators E Hh y n = .ok r) : (r.length : Int) = n := by
  rw [updateGenerators] at h
  split at h
  · cases h
  · rename_i h0
    simp only [Res.bind_eq_ok] at h
    obtain ⟨_, _, h⟩ := h
    split at h
    · rename_i h1; cases h; simp [h1]
    · simp only [Res.bind_eq_ok] at h
      obtain ⟨_, _, r', h2, h3⟩ := h
      cases h3
      simp only [List.length_cons, updateGeneratorsLoop_length h2]
      omega

theorem bpVerify_ok_iff {E : Ext} (p : BPProof) :
    bpVerify E p ≠ .panic ↔
      1 ≤ p.Params.N ∧ p.Params.N ≤ p.Params.Hh.length ∧ (p.Params.N = 1 ∨ ¬ ORDER ∣ (hashBP E p.A p.S).1) ∧
      (p.Params.Gg.length : Int) = p.Params.N ∧ ipVerify E p.IP ≠ .panic := by
  rw [bpVerify]
  generalize hashBP E p.A p.S = yz
  obtain ⟨y, z⟩ := yz
  have hup := updateGenerators_ok_iff (E := E) (Hh := p.Params.Hh) (y := y) (n := p.Params.N)
  simp only
  cases hu : updateGenerators E p.Params.Hh y p.Params.N with
  | panic =>
    refine iff_of_false (fun h => h rfl) fun ⟨h1, h2, h3, _⟩ => ?_
    obtain ⟨r, h, _⟩ := hup.2 ⟨h1, h2, h3⟩
    rw [hu] at h; cases h
  | ok hp =>
    have hl := updateGenerators_length hu
    obtain ⟨h1, h2, h3⟩ := hup.1 ⟨hp, hu, hl⟩
    obtain ⟨n, hn⟩ : ∃ n : Nat, p.Params.N = n := ⟨p.Params.N.toNat, by omega⟩
    simp only [h1, h2, h3, true_and, Res.ok_bind]
    rw [hn] at hl ⊢
    simp only [delta_eq, vectorCopy_eq, powerOf_eq, Res.ok_bind, vectorMul, vectorAdd, vectorScalarMul, vectorExp,
      List.length_replicate, List.length_map, List.length_range, ne_eq, not_true_eq_false, if_false, Option.getD_some,
      List.length_zipWith, min_self, Nat.cast_inj.1 hl, ite_not]
    by_cases hg : p.Params.Gg.length = n
    · simp only [hg, if_true, Res.ofOption_some, Res.ok_bind, true_and]
      cases ipVerify E p.IP with
      | panic => simp
      | ok r => simp
    · rw [if_neg hg]
      refine iff_of_false (fun h => h rfl) fun ⟨h, _⟩ => hg (by exact_mod_cast h)

theorem bprpVerify_ok_iff {E : Ext} (p : BPRPProof) :
    bprpVerify E p ≠ .panic ↔
      bpVerify E p.P1 ≠ .panic ∧ ((∃ P, bpVerify E p.P1 = .ok (true, P)) → bpVerify E p.P2 ≠ .panic) := by
  rw [bprpVerify]
  cases h1 : bpVerify E p.P1 with
  | panic => simp
  | ok r =>
    obtain ⟨v, P⟩ := r
    cases v <;> cases bpVerify E p.P2 <;> simp

/-! ### Pointers which are dereferenced -/

theorem res_ofOption_isSome {α : Type} {o : Option α} {a : α} (h : Res.ofOption o = .ok a) : o = some a := by
  cases o with
  | none => cases h
  | some b => cases h; rfl

theorem goScalarMult_ok {E : Ext} {a : Option P256} {n : Option Int} {r : P256} (h : goScalarMult E a n = .ok r) :
    ∃ p, a = some p ∧ (p.isZero = false → ∃ k, n = some k) := by
  simp only [goScalarMult, Res.bind_eq_ok] at h
  obtain ⟨p, h1, h2⟩ := h
  refine ⟨p, res_ofOption_isSome h1, fun hp => ?_⟩
  rw [if_neg (by rw [hp]; simp)] at h2
  simp only [Res.bind_eq_ok] at h2
  obtain ⟨k, h3, _⟩ := h2
  exact ⟨k, res_ofOption_isSome h3⟩

theorem goVectorExpLoop_ok {E : Ext} : ∀ {a : List (Option P256)} {b : List Int} {r q : P256},
    goVectorExpLoop E a b r = .ok q → a.length = b.length → ∀ o ∈ a, o ≠ none
  | [], _, _, _, _, _ => by simp
  | _ :: _, [], _, _, _, hl => by simp at hl
  | p :: a, n :: b, r, q, h, hl => by
    simp only [goVectorExpLoop, Res.bind_eq_ok] at h
    obtain ⟨s, h1, h2⟩ := h
    obtain ⟨p', hp, _⟩ := goScalarMult_ok h1
    intro o ho
    rcases List.mem_cons.1 ho with rfl | ho
    · rw [hp]; simp
    · exact goVectorExpLoop_ok h2 (by simpa using hl) o ho

theorem goVectorExp_ok {E : Ext} {a : List (Option P256)} {b : List Int} {q : P256}
    (h : goVectorExp E a b = .ok (some q)) : a.length = b.length ∧ ∀ o ∈ a, o ≠ none := by
  rw [goVectorExp] at h
  split at h
  · cases h
  · rename_i hl
    simp only [Res.bind_eq_ok] at h
    obtain ⟨r, h1, _⟩ := h
    rw [ne_eq, not_not] at hl
    exact ⟨hl, goVectorExpLoop_ok h1 hl⟩

theorem goVectorScalarExp_ok {E : Ext} {n : Option Int} : ∀ {a r : List (Option P256)},
    goVectorScalarExp E n a = .ok r → ∀ o ∈ a, o ≠ none
  | [], _, _ => by simp
  | p :: a, r, h => by
    simp only [goVectorScalarExp, Res.bind_eq_ok] at h
    obtain ⟨s, h1, r', h2, _⟩ := h
    obtain ⟨p', hp, _⟩ := goScalarMult_ok h1
    intro o ho
    rcases List.mem_cons.1 ho with rfl | ho
    · rw [hp]; simp
    · exact goVectorScalarExp_ok h2 o ho

theorem goUpdateGeneratorsLoop_ok {E : Ext} {Hh : List (Option P256)} {yi : Option Int} :
    ∀ {fuel i : Nat} {e : Option Int} {r : List (Option P256)},
    goUpdateGeneratorsLoop E Hh yi fuel i e = .ok r →
      r.length = fuel ∧ ∀ j, i ≤ j → j < i + fuel → ∃ q, Hh[j]? = some (some q)
  | 0, _, _, r, h => by
    simp only [goUpdateGeneratorsLoop, Res.ok.injEq] at h
    exact ⟨by simp [← h], fun j h1 h2 => by omega⟩
  | fuel + 1, i, e, r, h => by
    simp only [goUpdateGeneratorsLoop, Res.bind_eq_ok] at h
    obtain ⟨hi, h1, q, h2, _, _, _, _, r', h3, h4⟩ := h
    cases h4
    obtain ⟨ih1, ih2⟩ := goUpdateGeneratorsLoop_ok h3
    obtain ⟨p, hp, _⟩ := goScalarMult_ok h2
    refine ⟨by simp [ih1], fun j hj1 hj2 => ?_⟩
    rcases Nat.eq_or_lt_of_le hj1 with rfl | hj
    · exact ⟨p, by rw [idx] at h1; rw [res_ofOption_isSome h1, hp]⟩
    · exact ih2 j hj (by omega)

theorem goUpdateGenerators_ok {E : Ext} {Hh : List (Option P256)} {y n : Int} {r : List (Option P256)}
    (h : goUpdateGenerators E Hh y n = .ok r) (hr : ∀ o ∈ r, o ≠ none) :
    1 ≤ n ∧ ∀ j : Nat, (j : Int) < n → ∃ q, Hh[j]? = some (some q) := by
  rw [goUpdateGenerators] at h
  split at h
  · cases h
  · rename_i hn
    simp only [Res.bind_eq_ok] at h
    obtain ⟨h0, h1, r', h2, h3⟩ := h
    cases h3
    obtain ⟨_, ih⟩ := goUpdateGeneratorsLoop_ok h2
    refine ⟨by omega, fun j hj => ?_⟩
    rcases Nat.eq_zero_or_pos j with rfl | hj0
    · obtain ⟨q, hq⟩ := Option.ne_none_iff_exists'.1 (hr h0 (by simp))
      exact ⟨q, by rw [idx] at h1; rw [res_ofOption_isSome h1, hq]⟩
    · exact ih j hj0 (by omega)

theorem sliceTo_take {l r : List (Option P256)} {n : Int} (h : sliceTo l n = .ok r) : r = l.take n.toNat := by
  rw [sliceTo] at h
  split at h
  · cases h
  · cases h; rfl

theorem sliceFrom_drop {l r : List (Option P256)} {n : Int} (h : sliceFrom l n = .ok r) : r = l.drop n.toNat := by
  rw [sliceFrom] at h
  split at h
  · cases h
  · cases h; rfl

theorem mem_take_or_drop {α : Type} {l : List α} {a : α} (n : Nat) (h : a ∈ l) : a ∈ l.take n ∨ a ∈ l.drop n := by
  rw [← List.take_append_drop n l] at h
  exact List.mem_append.1 h

theorem goIpVerifyLoop_ok {E : Ext} : ∀ {Ls Rs g h : List (Option P256)} {P : Option P256} {n : Int}
    {r : List (Option P256) × List (Option P256) × Option P256}, goIpVerifyLoop E Ls Rs g h P n = .ok r →
    Ls.length ≤ Rs.length ∧ (∀ o ∈ Ls, o ≠ none) ∧ (∀ o ∈ Rs.take Ls.length, o ≠ none) ∧
      (if Ls = [] then r = (g, h, P) else (∀ o ∈ g, o ≠ none) ∧ (∀ o ∈ h, o ≠ none) ∧ P ≠ none)
  | [], _, _, _, _, _, r, hr => by
    simp only [goIpVerifyLoop, Res.ok.injEq] at hr
    simp [hr]
  | _ :: _, [], _, _, _, _, _, hr => by cases hr
  | L :: Ls, R :: Rs, g, h, P, n, r, hr => by
    simp only [goIpVerifyLoop, Res.bind_eq_ok, goHashBP, goMultiply] at hr
    obtain ⟨⟨x, y⟩, ⟨L', hL, R', hR, _⟩, gL, e1, gR, e2, g1, e3, g2, e4, g', _, hL', e5, hR', e6, h1, e7, h2, e8, h', _,
      Lx, _, P1, ⟨P', hP, _⟩, _, _, P2, _, hrec⟩ := hr
    obtain ⟨i1, i2, i3, _⟩ := goIpVerifyLoop_ok hrec
    rw [res_ofOption_isSome hL, res_ofOption_isSome hR, res_ofOption_isSome hP, if_neg (List.cons_ne_nil _ _)]
    rw [sliceTo_take e1] at e3
    rw [sliceFrom_drop e2] at e4
    rw [sliceTo_take e5] at e7
    rw [sliceFrom_drop e6] at e8
    refine ⟨by simpa using i1, ?_, ?_, ?_, ?_, by simp⟩
    · simpa using i2
    · simpa using i3
    · intro o ho
      rcases mem_take_or_drop _ ho with ho | ho
      · exact goVectorScalarExp_ok e3 o ho
      · exact goVectorScalarExp_ok e4 o ho
    · intro o ho
      rcases mem_take_or_drop _ ho with ho | ho
      · exact goVectorScalarExp_ok e7 o ho
      · exact goVectorScalarExp_ok e8 o ho

theorem goIpVerifyLoop_noninv {E : Ext} : ∀ {Ls Rs g h : List (Option P256)} {P : Option P256} {n : Int} {i : Nat}
    {L R : P256}, Ls[i]? = some (some L) → Rs[i]? = some (some R) → ORDER ∣ (hashBP E L R).1 → R.isZero = false →
    goIpVerifyLoop E Ls Rs g h P n = .panic
  | [], _, _, _, _, _, _, _, _, hL, _, _, _ => by simp at hL
  | _ :: _, [], _, _, _, _, _, _, _, _, hR, _, _ => by simp at hR
  | L :: Ls, R :: Rs, g, h, P, n, i, L', R', hL, hR, hd, hz => by
    cases hr : goIpVerifyLoop E (L :: Ls) (R :: Rs) g h P n with
    | panic => rfl
    | ok r =>
      exfalso
      simp only [goIpVerifyLoop, Res.bind_eq_ok, goHashBP] at hr
      obtain ⟨⟨x, y⟩, ⟨L'', hL'', R'', hR'', hxy⟩, _, _, _, _, _, _, _, _, _, _, _, _, _, _, _, _, _, _, _, _,
        _, _, _, _, Rx, hRx, _, _, hrec⟩ := hr
      cases i with
      | zero =>
        simp only [List.getElem?_cons_zero, Option.some.injEq] at hL hR
        subst hL hR
        cases hL''
        cases hR''
        have hx : x = (hashBP E L' R').1 := by rw [Res.ok.inj hxy]
        obtain ⟨p, hp, hk⟩ := goScalarMult_ok hRx
        cases hp
        obtain ⟨k, hk⟩ := hk hz
        rw [modInverse_order_none.2] at hk
        · cases hk
        · rw [← fn_eq_zero] at hd ⊢
          rw [fn_emod, Int.cast_mul, hx, hd, zero_mul]
      | succ i =>
        rw [goIpVerifyLoop_noninv (i := i) hL hR hd hz] at hrec
        cases hrec

/-- The pointers which `InnerProductProof.Verify` dereferences. -/
structure GoIPProof.Present (p : GoIPProof) : Prop where
  U : p.U ≠ none
  A : p.A ≠ none
  B : p.B ≠ none
  P : p.Params.P ≠ none
  sizes : (p.Ls.getD []).length ≤ (p.Rs.getD []).length
  Ls : ∀ o ∈ p.Ls.getD [], o ≠ none
  Rs : ∀ o ∈ (p.Rs.getD []).take (p.Ls.getD []).length, o ≠ none
  g0 : p.Ls.getD [] = [] → ∃ q l, p.Params.Gg.getD [] = some q :: l
  h0 : p.Ls.getD [] = [] → ∃ q l, p.Params.Hh.getD [] = some q :: l
  g : p.Ls.getD [] ≠ [] → ∀ o ∈ p.Params.Gg.getD [], o ≠ none
  h : p.Ls.getD [] ≠ [] → ∀ o ∈ p.Params.Hh.getD [], o ≠ none

theorem goIpVerify_present {E : Ext} {p : GoIPProof} {r : Bool × P256} (hv : goIpVerify E p = .ok r) : p.Present := by
  simp only [goIpVerify, Res.bind_eq_ok] at hv
  obtain ⟨⟨g, h, P⟩, hl, A, hA, B, hB, g0, hg0, h0, hh0, rg, hrg, rh, hrh, rU, hrU, P', hP, _⟩ := hv
  obtain ⟨i1, i2, i3, i4⟩ := goIpVerifyLoop_ok hl
  obtain ⟨U', hU, _⟩ := goScalarMult_ok hrU
  obtain ⟨g0', hg0', _⟩ := goScalarMult_ok hrg
  obtain ⟨h0', hh0', _⟩ := goScalarMult_ok hrh
  simp only [idx] at hg0 hh0
  replace hg0 := res_ofOption_isSome hg0
  replace hh0 := res_ofOption_isSome hh0
  have hP' : p.Params.P ≠ none := by
    split at i4
    · cases i4
      have := res_ofOption_isSome hP
      simp only at this
      rw [this]; simp
    · exact i4.2.2
  refine ⟨by rw [hU]; simp, by rw [res_ofOption_isSome hA]; simp, by rw [res_ofOption_isSome hB]; simp, hP', i1, i2, i3,
    fun he => ?_, fun he => ?_, fun he => ?_, fun he => ?_⟩
  · rw [if_pos he] at i4
    cases i4
    subst hg0'
    cases hc : p.Params.Gg.getD [] with
    | nil => rw [hc] at hg0; cases hg0
    | cons q l => rw [hc] at hg0; cases hg0; exact ⟨_, _, rfl⟩
  · rw [if_pos he] at i4
    cases i4
    subst hh0'
    cases hc : p.Params.Hh.getD [] with
    | nil => rw [hc] at hh0; cases hh0
    | cons q l => rw [hc] at hh0; cases hh0; exact ⟨_, _, rfl⟩
  · rw [if_neg he] at i4; exact i4.1
  · rw [if_neg he] at i4; exact i4.2.1

/-- The pointers which `BulletProof.Verify` dereferences. -/
structure GoBPProof.Present (p : GoBPProof) : Prop where
  V : p.V ≠ none
  A : p.A ≠ none
  S : p.S ≠ none
  T1 : p.T1 ≠ none
  T2 : p.T2 ≠ none
  Tprime : p.Tprime ≠ none
  Commit : p.Commit ≠ none
  H : ∃ H, p.Params.H = some H ∧ (H.isZero = false → p.Taux ≠ none ∧ p.Mu ≠ none)
  N : 1 ≤ p.Params.N
  Gg : (p.Params.Gg.getD []).length = p.Params.N ∧ ∀ o ∈ p.Params.Gg.getD [], o ≠ none
  Hh : ∀ j : Nat, (j : Int) < p.Params.N → ∃ q, (p.Params.Hh.getD [])[j]? = some (some q)
  IP : p.InnerProductProof.Present

theorem goVerify_present {E : Ext} {p : GoBPProof} {r : Bool × P256} (hv : goVerify E p = .ok r) : p.Present := by
  simp only [goVerify, Res.bind_eq_ok, goHashBP, goCommitG1, goScalarBaseMult, goMultiply, goAdd] at hv
  obtain ⟨_, ⟨T1, hT1, T2, hT2, _⟩, ⟨y, z⟩, ⟨A, hA, S, hS, _⟩, hp, hhp, _, ⟨_, ⟨tp, htp, _⟩, _, hHr, _⟩, _, hV, d, hd,
    _, _, _, _, _, _, _, _, vmz, hvmz, gp, hgp, vz, hvz, vy, hvy, p2, hp2, _, ⟨_, _, gp', hgp', _⟩, hx, hhx, _,
    ⟨_, _, hx', hhx', _⟩, _, hHm, _, ⟨_, _, C, hC, _⟩, _, hip, _⟩ := hv
  obtain ⟨V, hV, _⟩ := goScalarMult_ok hV
  obtain ⟨H, hH, hH1⟩ := goScalarMult_ok hHr
  obtain ⟨H', hH', hH2⟩ := goScalarMult_ok hHm
  rw [res_ofOption_isSome hgp'] at hgp
  rw [res_ofOption_isSome hhx'] at hhx
  obtain ⟨g1, g2⟩ := goVectorExp_ok hgp
  obtain ⟨h1, h2⟩ := goUpdateGenerators_ok hhp (goVectorExp_ok hhx).2
  rw [hH] at hH'
  cases hH'
  refine ⟨by rw [hV]; simp, by rw [res_ofOption_isSome hA]; simp, by rw [res_ofOption_isSome hS]; simp,
    by rw [res_ofOption_isSome hT1]; simp, by rw [res_ofOption_isSome hT2]; simp, by rw [res_ofOption_isSome htp]; simp,
    by rw [res_ofOption_isSome hC]; simp, ⟨H, hH, fun hz => ⟨?_, ?_⟩⟩, h1, ⟨?_, g2⟩, h2, goIpVerify_present hip⟩
  · obtain ⟨k, hk⟩ := hH1 hz; rw [hk]; simp
  · obtain ⟨k, hk⟩ := hH2 hz; rw [hk]; simp
  · rw [vectorCopy, if_neg (by omega)] at hvmz
    cases hvmz
    rw [g1, List.length_replicate]
    omega

/-! ### Members which are missing from a text -/

/-- The values of the members whose key is `name` up to case. -/
def JsonMembers.valuesOf (name : List UInt8) : JsonMembers → List Json
  | .nil => []
  | .cons k v m => if foldKey (unquote k) = foldKey name then v :: m.valuesOf name else m.valuesOf name

theorem findField_mem {F : Type} {fs : List (List UInt8 × F)} {k : List UInt8} {f : F} (h : findField fs k = some f) :
    ∃ n, (n, f) ∈ fs ∧ foldKey n = foldKey k := by
  rw [findField] at h
  split at h
  · rename_i g hg
    cases h
    have h1 := List.find?_some hg
    exact ⟨g.1, List.mem_of_find?_eq_some hg, by rw [beq_iff_eq.1 h1]⟩
  · rw [Option.map_eq_some_iff] at h
    obtain ⟨g, hg, rfl⟩ := h
    have h1 := List.find?_some hg
    exact ⟨g.1, List.mem_of_find?_eq_some hg, beq_iff_eq.1 h1⟩

/-- An invariant of the decoder: kept by every field but `name`, and by `name` with the value null. -/
theorem decFields_inv {T : Type} {fs : List (List UInt8 × (Json → T → Option T))} {name : List UInt8} {Q : T → Prop}
    (hother : ∀ n f, (n, f) ∈ fs → foldKey n ≠ foldKey name → ∀ v t t', f v t = some t' → Q t → Q t')
    (hname : ∀ n f, (n, f) ∈ fs → foldKey n = foldKey name → ∀ t t', f .null t = some t' → Q t → Q t') :
    ∀ (m : JsonMembers) (t t' : T), (∀ v ∈ m.valuesOf name, v = .null) → decFields fs m t = some t' → Q t → Q t'
  | .nil, t, t', _, h, hq => by cases h; exact hq
  | .cons k v m, t, t', hv, h, hq => by
    have hv' : ∀ v ∈ m.valuesOf name, v = .null := by
      intro w hw
      refine hv w ?_
      rw [JsonMembers.valuesOf]
      split
      · exact List.mem_cons_of_mem _ hw
      · exact hw
    rw [decFields] at h
    split at h
    · exact decFields_inv hother hname m t t' hv' h hq
    · rename_i f hf
      obtain ⟨n, hn, hk⟩ := findField_mem hf
      simp only [Option.bind_eq_bind, Option.bind_eq_some_iff] at h
      obtain ⟨t1, h1, h2⟩ := h
      refine decFields_inv hother hname m t1 t' hv' h2 ?_
      by_cases hc : foldKey (unquote k) = foldKey name
      · rw [hv v (by rw [JsonMembers.valuesOf, if_pos hc]; simp)] at h1
        exact hname n f hn (hk.trans hc) t t1 h1 hq
      · exact hother n f hn (fun e => hc (hk ▸ e)) v t t1 h1 hq

theorem fieldOf_some {T A : Type} {get : T → A} {set : A → T → T} {dec : Json → A → Option A} {j : Json} {t t' : T}
    (h : fieldOf get set dec j t = some t') : ∃ a, dec j (get t) = some a ∧ t' = set a t := by
  simp only [fieldOf, Option.bind_eq_bind, Option.bind_eq_some_iff, Option.some.injEq] at h
  obtain ⟨a, h1, h2⟩ := h
  exact ⟨a, h1, h2.symm⟩

theorem decFields_null {T A : Type} {fs : List (List UInt8 × (Json → T → Option T))} {name : List UInt8} (get : T → A)
    {a : A}
    (hfs : ∀ nf ∈ fs, (foldKey nf.1 ≠ foldKey name → ∀ v t t', nf.2 v t = some t' → get t' = get t) ∧
      (foldKey nf.1 = foldKey name → ∀ t t', nf.2 .null t = some t' → get t = a → get t' = a))
    {m : JsonMembers} {t t' : T} (hm : ∀ v ∈ m.valuesOf name, v = .null) (h : decFields fs m t = some t')
    (ht : get t = a) : get t' = a :=
  decFields_inv (Q := fun t => get t = a)
    (fun n f hn hk v t t' h1 h2 => ((hfs (n, f) hn).1 hk v t t' h1).trans h2)
    (fun n f hn hk t t' h1 h2 => (hfs (n, f) hn).2 hk t t' h1 h2) m t t' hm h ht

/-- A field other than the given one keeps its value. -/
theorem field_other {T A B : Type} {get : T → A} {set : A → T → T} {dec : Json → A → Option A} {g : T → B} {b : B}
    {n name : List UInt8} (h : ∀ a t, g (set a t) = g t) (hn : foldKey n ≠ foldKey name) :
    (foldKey n ≠ foldKey name → ∀ v t t', fieldOf get set dec v t = some t' → g t' = g t) ∧
      (foldKey n = foldKey name → ∀ t t', fieldOf get set dec .null t = some t' → g t = b → g t' = b) := by
  refine ⟨fun _ v t t' hf => ?_, fun hc => absurd hc hn⟩
  obtain ⟨a, _, rfl⟩ := fieldOf_some hf
  exact h a t

/-- The value null leaves the given field as it was in the zero value. -/
theorem field_null {T A : Type} {get : T → A} {set : A → T → T} {dec : Json → A → Option A} {b : A}
    {name : List UInt8} (h : ∀ a t, get (set a t) = a) (hd : dec .null b = some b) :
    (foldKey name ≠ foldKey name → ∀ v t t', fieldOf get set dec v t = some t' → get t' = get t) ∧
      (foldKey name = foldKey name → ∀ t t', fieldOf get set dec .null t = some t' → get t = b → get t' = b) := by
  refine ⟨fun hc => absurd rfl hc, fun _ t t' hf ht => ?_⟩
  obtain ⟨a, ha, rfl⟩ := fieldOf_some hf
  rw [ht, hd] at ha
  cases ha
  exact h _ t

end Verif
