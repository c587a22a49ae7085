import Mathlib.Data.Set.Card.Arithmetic
import Verif.Props.P256
import Verif.Props.Bp
import Verif.Props.CcsMisc

/-!
# C106: which points `MapToGroup` returns, and which messages share its hash inputs
-/

namespace Verif

/-! ## One point for each abscissa -/

/-- C106: the ordinate is the root that `ModSqrt` chooses for `x³ + 7`, whatever the message. -/
theorem C106_root (E : Ext) (m : List UInt8) (p : P256) (h : mapToGroup E m = .ok (some p)) :
    ∃ x, p.X = some x ∧ p.Y = E.modSqrt ((x ^ 3 + 7) % secpP) := by
  have key : ∀ fuel i, mapToGroupLoop E m fuel i = .ok (some p) →
      ∃ x, p.X = some x ∧ p.Y = E.modSqrt ((x ^ 3 + 7) % secpP) := by
    intro fuel
    induction fuel with
    | zero => intro i h; cases h
    | succ fuel ih =>
      intro i h
      rw [mapToGroupLoop] at h
      cases h1 : hashToInt E (decimalNat i ++ m) with
      | panic => rw [h1] at h; cases h
      | ok v =>
        rw [h1, Res.ok_bind] at h
        cases v with
        | none => cases h
        | some x =>
          rw [Res.ofOption_some, Res.ok_bind] at h
          have hf : curveF (x % secpP) % secpP = ((x % secpP) ^ 3 + 7) % secpP := by
            simp only [curveF]
            generalize x % secpP = y
            rw [Int.emod_emod_of_dvd _ (dvd_refl _), Int.emod_add_emod, Int.add_emod, Int.mul_emod, Int.emod_emod_of_dvd _ (dvd_refl _),
              ← Int.mul_emod, ← Int.add_emod]
            ring_nf
          dsimp only at h
          cases h2 : E.modSqrt (curveF (x % secpP) % secpP) with
          | none => rw [h2] at h; exact ih _ h
          | some y =>
            rw [h2] at h
            simp only [P256.isOnCurve, Res.ok_bind] at h
            split at h
            · cases h
              exact ⟨_, rfl, by rw [← hf, h2]⟩
            · exact ih _ h
  exact key 256 0 h

/-- C106: two results with the same abscissa are the same point. -/
theorem C106_abscissa (E : Ext) (m m' : List UInt8) (p p' : P256) (h : mapToGroup E m = .ok (some p))
    (h' : mapToGroup E m' = .ok (some p')) (hx : p.X = p'.X) : p = p' := by
  obtain ⟨x, e1, e2⟩ := C106_root E m p h
  obtain ⟨x', e3, e4⟩ := C106_root E m' p' h'
  obtain rfl : x = x' := by rw [e1, e3] at hx; exact Option.some.inj hx
  cases p; cases p'
  simp only at *
  rw [e1, e2, e3, e4]

theorem secp_ordinate {Q : Secp} {x y : SF} (h : IsPt Q x y) : y ≠ 0 := by
  rintro rfl
  have h2 : (2 : Fn) • Q = 0 := by
    rw [show (2 : Fn) = 1 + 1 by norm_num, add_smul, one_smul]
    exact h.double_zero
  rcases smul_eq_zero.1 h2 with h3 | h3
  · exact absurd h3 (by decide +kernel)
  · exact h.ne_zero h3

/-- C106: no message is mapped to the inverse of the point of another (or the same) message. -/
theorem C106_inverse {E : Ext} (m m' : List UInt8) (p p' : P256) (P P' : Secp) (h : mapToGroup E m = .ok (some p))
    (h' : mapToGroup E m' = .ok (some p')) (hp : RepFin p P) (hp' : RepFin p' P') : P ≠ -P' := by
  intro hc
  obtain ⟨x, y, rfl, x0, x1, y0, y1, k⟩ := hp
  obtain ⟨x', y', rfl, x0', x1', y0', y1', k'⟩ := hp'
  obtain ⟨e1, e2⟩ := (k.inj k'.neg).1 hc
  have ex : x = x' := (sf_inj x0 x1 x0' x1').1 e1
  have := C106_abscissa E m m' _ _ h h' (congrArg some ex)
  simp only [P256.mk.injEq, Option.some.injEq] at this
  rw [this.2] at e2
  have h2 : (2 : SF) * (y' : SF) = 0 := by linear_combination e2
  exact (secp_ordinate k') ((mul_eq_zero.1 h2).resolve_left sf_two)

/-! ## How many -/

/-- The abscissae of points, in the field. -/
def secpXs : Set SF := {x | ∃ y, y ^ 2 = x ^ 3 + 7}

theorem secpXs_card : 2 * secpXs.ncard + 1 = secpNn := by
  have : Finite Secp := Nat.finite_of_card_ne_zero (by rw [secp_card]; decide)
  obtain ⟨f, hf⟩ : ∃ f : SF → Secp, ∀ x ∈ secpXs, ∃ y, IsPt (f x) x y := by
    have hex : ∀ x, ∃ Q : Secp, x ∈ secpXs → ∃ y, IsPt Q x y := fun x => by
      by_cases hx : x ∈ secpXs
      · obtain ⟨y, hy⟩ := hx
        exact ⟨_, fun _ => ⟨y, isPt_secpPt x y hy⟩⟩
      · exact ⟨0, fun h => absurd h hx⟩
    exact ⟨fun x => (hex x).choose, fun x => (hex x).choose_spec⟩
  have hinj : Set.InjOn f secpXs := fun a ha b hb e => by
    obtain ⟨y, hy⟩ := hf a ha
    obtain ⟨z, hz⟩ := hf b hb
    exact ((hy.inj hz).1 e).1
  have hneg : (Neg.neg '' (f '' secpXs)).ncard = (f '' secpXs).ncard := Set.ncard_image_of_injective _ neg_injective
  have hdis : Disjoint (f '' secpXs) (Neg.neg '' (f '' secpXs)) := by
    rw [Set.disjoint_left]
    rintro _ ⟨a, ha, rfl⟩ ⟨_, ⟨b, hb, rfl⟩, e⟩
    obtain ⟨y, hy⟩ := hf a ha
    obtain ⟨z, hz⟩ := hf b hb
    obtain ⟨rfl, h1⟩ := (hz.neg.inj hy).1 e
    have := (hz.inj hy).1 rfl
    have h2 : (2 : SF) * y = 0 := by linear_combination -h1 - this.2
    exact (secp_ordinate hy) ((mul_eq_zero.1 h2).resolve_left sf_two)
  have hun : f '' secpXs ∪ Neg.neg '' (f '' secpXs) = {0}ᶜ := by
    ext Q
    simp only [Set.mem_union, Set.mem_compl_iff, Set.mem_singleton_iff]
    constructor
    · rintro (⟨a, ha, rfl⟩ | ⟨_, ⟨a, ha, rfl⟩, rfl⟩)
      · obtain ⟨y, hy⟩ := hf a ha
        exact hy.ne_zero
      · obtain ⟨y, hy⟩ := hf a ha
        exact hy.neg.ne_zero
    · intro hQ
      obtain ⟨x, y, hxy⟩ := (isPt_or_zero Q).resolve_left hQ
      have hx : x ∈ secpXs := ⟨y, hxy.eqn⟩
      obtain ⟨z, hz⟩ := hf x hx
      rcases hz.eq_or_neg hxy with h | h
      · exact .inl ⟨x, hx, (hz.inj hxy).2 ⟨rfl, h⟩⟩
      · exact .inr ⟨_, ⟨x, hx, rfl⟩, (hz.neg.inj hxy).2 ⟨rfl, by rw [h, neg_neg]⟩⟩
  have h1 := Set.ncard_union_eq hdis (Set.toFinite _) (Set.toFinite _)
  rw [hun, hneg, hinj.ncard_image, Set.ncard_compl, Set.ncard_singleton, secp_card] at h1
  have : 1 ≤ secpNn := by decide
  omega

/-- C106: `(ORDER - 1) / 2` of the numbers below `p` are abscissae of points, so a try of `MapToGroup` succeeds about every second time. -/
theorem C106_count : 2 * ({x : Int | 0 ≤ x ∧ x < secpP ∧ OnCurveX x}.ncard : Int) + 1 = ORDER := by
  have h : {x : Int | 0 ≤ x ∧ x < secpP ∧ OnCurveX x} = (fun x : SF => (x.val : Int)) '' secpXs := by
    ext x
    simp only [Set.mem_ofPred_eq, Set.mem_image]
    constructor
    · rintro ⟨h0, h1, h2⟩
      refine ⟨(x : SF), ?_, ?_⟩
      · obtain ⟨y, hy⟩ := (onCurveX_iff x).1 h2
        exact ⟨y, hy⟩
      · refine (sf_inj (by omega) (sf_val_lt _) h0 h1).1 ?_
        rw [sf_val]
    · rintro ⟨a, ⟨y, hy⟩, rfl⟩
      refine ⟨by omega, sf_val_lt _, (onCurveX_iff _).2 ⟨y, ?_⟩⟩
      rw [sf_val]; exact hy
  have hinj : Function.Injective (fun x : SF => (x.val : Int)) := fun a b e => ZMod.val_injective _ (Int.ofNat.inj e)
  rw [h, Set.ncard_image_of_injective _ hinj, ORDER_eq, ← secpXs_card]
  push_cast
  rfl

theorem exists_unsigned : ∀ (n v : Nat), v < 256 ^ n → ∃ bs : List UInt8, bs.length = n ∧ Spec.unsigned bs = v
  | 0, v, h => ⟨[], rfl, by rw [pow_zero] at h; simp only [Spec.unsigned]; omega⟩
  | n + 1, v, h => by
    obtain ⟨bs, h1, h2⟩ := exists_unsigned n (v % 256 ^ n) (Nat.mod_lt _ (by positivity))
    have hq : v / 256 ^ n < 256 := Nat.div_lt_of_lt_mul (by rw [pow_succ] at h; exact h)
    refine ⟨UInt8.ofNat (v / 256 ^ n) :: bs, by rw [List.length_cons, h1], ?_⟩
    rw [Spec.unsigned, h1, h2, UInt8.toNat_ofNat', Nat.mod_eq_of_lt hq]
    exact Nat.div_add_mod' v (256 ^ n)

/-- Every residue is the two's-complement value of 32 bytes, modulo `p`. -/
theorem exists_twos (x : Int) (h0 : 0 ≤ x) (h1 : x < secpP) : ∃ bs : List UInt8, bs.length = 32 ∧ Spec.twos bs % secpP = x := by
  have hp : secpP < 2 ^ 256 ∧ 2 ^ 256 - 2 ^ 255 ≤ secpP := by decide +kernel
  rcases lt_or_ge x (2 ^ 255) with h | h
  · obtain ⟨bs, e1, e2⟩ := exists_unsigned 31 (x.toNat % 256 ^ 31) (Nat.mod_lt _ (by norm_num))
    have hq : x.toNat / 256 ^ 31 < 128 := by omega
    refine ⟨UInt8.ofNat (x.toNat / 256 ^ 31) :: bs, by rw [List.length_cons, e1], ?_⟩
    rw [Spec.twos, e1, e2, UInt8.toNat_ofNat', Nat.mod_eq_of_lt (by omega), if_neg (by omega)]
    rw [show ((x.toNat / 256 ^ 31 : Nat) : Int) * 256 ^ 31 + ((x.toNat % 256 ^ 31 : Nat) : Int) = x by omega]
    exact Int.emod_eq_of_lt h0 h1
  · obtain ⟨v, hv⟩ : ∃ v : Nat, (v : Int) = x - secpP + 2 ^ 256 := ⟨(x - secpP + 2 ^ 256).toNat, by omega⟩
    obtain ⟨bs, e1, e2⟩ := exists_unsigned 31 (v % 256 ^ 31) (Nat.mod_lt _ (by norm_num))
    have hq : v / 256 ^ 31 < 256 ∧ 128 ≤ v / 256 ^ 31 := by omega
    refine ⟨UInt8.ofNat (v / 256 ^ 31) :: bs, by rw [List.length_cons, e1], ?_⟩
    rw [Spec.twos, e1, e2, UInt8.toNat_ofNat', Nat.mod_eq_of_lt hq.1, if_pos hq.2]
    rw [show (((v / 256 ^ 31 : Nat) : Int) - 256) * 256 ^ 31 + ((v % 256 ^ 31 : Nat) : Int) = x - secpP by omega]
    rw [Int.sub_emod_right]
    exact Int.emod_eq_of_lt h0 h1

theorem Ext.Ok.withHash {E : Ext} (hE : E.Ok) {sha : List UInt8 → List UInt8} (hs : ∀ b, (sha b).length = 32) :
    ({ E with sha256 := sha } : Ext).Ok :=
  ⟨hE.scalarMult_zero, hE.scalarMult_fin, hE.double_fin, hE.modSqrt_some, hE.modSqrt_none, hs⟩

/-- C106: whatever the hash function and the message, `MapToGroup` can return one of `(ORDER - 1) / 2` points only, half of those that are
not infinity; and all of these can come out. -/
theorem C106_image {E : Ext} (hE : E.Ok) :
    2 * ({p : P256 | ∃ sha m, (∀ b, (sha b).length = 32) ∧ mapToGroup { E with sha256 := sha } m = .ok (some p)}.ncard : Int) + 1 =
      ORDER := by
  rw [← C106_count]
  congr 3
  have h : {x : Int | 0 ≤ x ∧ x < secpP ∧ OnCurveX x} =
      (fun p : P256 => p.x) '' {p : P256 | ∃ sha m, (∀ b, (sha b).length = 32) ∧ mapToGroup { E with sha256 := sha } m = .ok (some p)} := by
    ext x
    simp only [Set.mem_ofPred_eq, Set.mem_image]
    constructor
    · rintro ⟨h0, h1, h2⟩
      obtain ⟨bs, e1, e2⟩ := exists_twos x h0 h1
      have hs : ∀ b : List UInt8, ((fun _ => bs : List UInt8 → List UInt8) b).length = 32 := fun _ => e1
      have hc : ∀ i, candidateX { E with sha256 := fun _ => bs } [] i = x := fun i => e2
      rcases C17_mapToGroup (hE.withHash hs) [] with ⟨_, h⟩ | ⟨i, p, y, hi, h3, h4, _⟩
      · exact absurd (by rw [hc]; exact h2) (h 0 (by norm_num))
      · refine ⟨p, ⟨_, [], hs, h3⟩, ?_⟩
        rw [h4, hc]
        rfl
    · rintro ⟨p, ⟨sha, m, hs, h⟩, rfl⟩
      rcases C17_mapToGroup (hE.withHash hs) m with ⟨h1, _⟩ | ⟨i, p', y, hi, h1, rfl, h2, h3, h4, h5, h6, _⟩
      · rw [h] at h1; cases h1
      · rw [h] at h1
        cases h1
        exact ⟨h2, h3, ⟨y, h6⟩⟩
  rw [h, Set.InjOn.ncard_image]
  rintro p ⟨sha, m, hs, hp⟩ p' ⟨sha', m', hs', hp'⟩ e
  obtain ⟨x, e1, e2⟩ := C106_root _ m p hp
  obtain ⟨x', e3, e4⟩ := C106_root _ m' p' hp'
  cases p; cases p'
  simp only [P256.x] at *
  subst e1 e3
  simp only [Option.getD_some] at e
  rw [e2, e4, e]

/-! ## Hash inputs -/

/-- A decimal digit. -/
def IsDigitByte (b : UInt8) : Prop := 48 ≤ b.toNat ∧ b.toNat ≤ 57

theorem decNat_digits (n : Nat) : ∀ b ∈ Spec.decNat n, IsDigitByte b := by
  intro b hb
  unfold Spec.decNat at hb
  split at hb
  · simp at hb; subst hb; exact ⟨by decide, by decide⟩
  · simp only [List.mem_map, List.mem_reverse] at hb
    obtain ⟨d, hd, rfl⟩ := hb
    have := Nat.digits_lt_base (by norm_num : 1 < 10) hd
    interval_cases d <;> exact ⟨by decide, by decide⟩

/-- C106: for messages that do not begin with a digit, different messages and different tries have different hash inputs. -/
theorem C106_domain (i j : Nat) (m m' : List UInt8) (hm : ∀ b ∈ m.head?, ¬ IsDigitByte b) (hm' : ∀ b ∈ m'.head?, ¬ IsDigitByte b)
    (h : Spec.decNat i ++ m = Spec.decNat j ++ m') : i = j ∧ m = m' := by
  have key : ∀ a b : List UInt8, (∀ x ∈ a, IsDigitByte x) → (∀ x ∈ b, IsDigitByte x) → a ++ m = b ++ m' → a = b ∧ m = m' := by
    intro a
    induction a with
    | nil =>
      intro b _ hb e
      cases b with
      | nil => exact ⟨rfl, e⟩
      | cons x b =>
        rw [List.nil_append] at e
        exact absurd (hb x List.mem_cons_self) (hm x (by rw [e]; rfl))
    | cons x a ih =>
      intro b ha hb e
      cases b with
      | nil =>
        rw [List.nil_append] at e
        exact absurd (ha x List.mem_cons_self) (hm' x (by rw [← e]; rfl))
      | cons y b =>
        simp only [List.cons_append, List.cons.injEq] at e
        obtain ⟨e1, e2⟩ := ih b (fun z hz => ha z (List.mem_cons_of_mem _ hz)) (fun z hz => hb z (List.mem_cons_of_mem _ hz)) e.2
        exact ⟨by rw [e.1, e1], e2⟩
  obtain ⟨e1, e2⟩ := key _ _ (decNat_digits i) (decNat_digits j) h
  exact ⟨decimalNat_inj e1, e2⟩

/-- C106: so it is for the seeds of the package. -/
theorem C106_seeds (s t : Seed) (hs : s.Valid) (ht : t.Valid) (i j : Nat) (h : Spec.decNat i ++ s.bytes = Spec.decNat j ++ t.bytes) :
    s = t ∧ i = j := by
  have hb : ∀ s : Seed, ∀ b ∈ s.bytes.head?, ¬ IsDigitByte b := by
    intro s b hb
    have : s.bytes.head? = some 66 := by cases s <;> rfl
    rw [this] at hb
    cases hb
    exact fun h => absurd h.2 (by decide)
  obtain ⟨e1, e2⟩ := C106_domain i j _ _ (hb s) (hb t) h
  exact ⟨C56_seeds_distinct hs ht e2, e1⟩

/-- C106: a message that begins with a digit shares hash inputs with the message without it. -/
theorem C106_prefix (E : Ext) (m : List UInt8) (d i : Nat) (hd : d < 10) (hi : 0 < i) :
    candidateX E (Spec.asciiDigit d :: m) i = candidateX E m (10 * i + d) := by
  have : Spec.decNat (10 * i + d) = Spec.decNat i ++ [Spec.asciiDigit d] := by
    unfold Spec.decNat
    rw [if_neg (by omega), if_neg (by omega), show 10 * i + d = d + 10 * i by omega, Nat.digits_add 10 (by norm_num) d i hd (.inr (by omega))]
    simp
  rw [candidateX, candidateX, this, List.append_assoc]
  rfl

/-- C106: different messages with the same point.  If the first ten tries fail for `m` and the eleventh succeeds, and the first try fails
for `"0" + m`, then both messages have the same point. -/
theorem C106_collision {E : Ext} (hE : E.Ok) (m : List UInt8) (h1 : ∀ k < 10, ¬ OnCurveX (candidateX E m k))
    (h2 : OnCurveX (candidateX E m 10)) (h3 : ¬ OnCurveX (candidateX E (48 :: m) 0)) :
    ∃ p, mapToGroup E m = .ok (some p) ∧ mapToGroup E (48 :: m) = .ok (some p) := by
  have h4 : candidateX E (48 :: m) 1 = candidateX E m 10 := C106_prefix E m 0 1 (by norm_num) (by norm_num)
  rcases C17_mapToGroup hE m with ⟨_, h⟩ | ⟨i, p, y, hi, g1, g2, g3, g4, g5, g6, g7, -, -, g10⟩
  · exact absurd h2 (h 10 (by norm_num))
  rcases C17_mapToGroup hE (48 :: m) with ⟨_, h⟩ | ⟨j, q, z, hj, k1, k2, k3, k4, k5, k6, k7, -, -, k10⟩
  · exact absurd (by rw [h4]; exact h2) (h 1 (by norm_num))
  have ei : i = 10 := by
    rcases lt_trichotomy i 10 with h | h | h
    · exact absurd ⟨y, g7⟩ (h1 i h)
    · exact h
    · exact absurd h2 (g10 10 h)
  have ej : j = 1 := by
    rcases lt_trichotomy j 1 with h | h | h
    · obtain rfl : j = 0 := by omega
      exact absurd ⟨z, k7⟩ h3
    · exact h
    · exact absurd (by rw [h4]; exact h2) (k10 1 h)
  subst ei ej
  have := C106_abscissa E _ _ p q g1 k1 (by rw [g2, k2, h4])
  exact ⟨p, g1, this ▸ k1⟩

/-! ## Instances -/

/-- With a constant hash all messages have the same point. -/
example : ∃ p, mapToGroup (idealExt hashOne) (ascii "a") = .ok (some p) ∧ mapToGroup (idealExt hashOne) (ascii "b") = .ok (some p) ∧
    ∃ P, RepFin p P ∧ P ≠ -P := by
  obtain ⟨p, hp⟩ := mapToGroup_hashOne (ascii "a")
  obtain ⟨q, hq⟩ := mapToGroup_hashOne (ascii "b")
  have hE := idealExt_ok hashOne (fun _ => rfl)
  have hx : ∀ m i, candidateX (idealExt hashOne) m i = 1 := fun _ _ => by
    show Spec.twos (List.replicate 31 0 ++ [1]) % secpP = 1
    decide +kernel
  have ex : ∀ m r, mapToGroup (idealExt hashOne) m = .ok (some r) → r.X = some 1 := fun m r h => by
    rcases C17_mapToGroup hE m with ⟨h1, _⟩ | ⟨i, r', y, _, h1, h2, _⟩
    · rw [h] at h1; cases h1
    · rw [h] at h1
      cases h1
      rw [h2, hx]
  have := C106_abscissa _ _ _ p q hp hq (by rw [ex _ _ hp, ex _ _ hq])
  obtain ⟨P, hP⟩ := mapToGroup_isPoint hE hp
  exact ⟨p, hp, this ▸ hq, P, hP, C106_inverse _ _ p p P P hp hp hP hP⟩

/-- `C106_root` for the same hash. -/
example : ∃ p x, mapToGroup (idealExt hashOne) (ascii "a") = .ok (some p) ∧ p.X = some x ∧
    p.Y = (idealExt hashOne).modSqrt ((x ^ 3 + 7) % secpP) := by
  obtain ⟨p, hp⟩ := mapToGroup_hashOne (ascii "a")
  obtain ⟨x, h⟩ := C106_root _ _ p hp
  exact ⟨p, x, hp, h⟩

example := C106_image (idealExt_ok hashOne (fun _ => rfl))

/-- The texts hashed for `H` and for the first `g` are different in all tries. -/
example (i j : Nat) : Spec.decNat i ++ Seed.bytes .H ≠ Spec.decNat j ++ Seed.bytes (.g 0) := fun h => by
  have := (C106_seeds .H (.g 0) trivial (by show 0 < 32; decide) i j h).1
  cases this

example (E : Ext) : candidateX E (ascii "7x") 12 = candidateX E (ascii "x") 127 := C106_prefix E (ascii "x") 7 12 (by norm_num) (by norm_num)

/-- 1 is the abscissa of a point, 5 is not. -/
theorem onCurveX_one_five : OnCurveX 1 ∧ ¬ OnCurveX 5 := by
  constructor
  · exact ⟨29896722852569046015560700294576055776214335159245303116488692907525646231534, by
      show _ % secpP = _ % secpP; decide +kernel⟩
  · rw [onCurveX_iff]
    rintro ⟨y, hy⟩
    have h132 : y ^ 2 = ((132 : Nat) : SF) := by rw [hy]; norm_num
    have hy0 : y ≠ 0 := by
      rintro rfl
      have hc : ((132 : Nat) : SF) = 0 := by rw [← h132]; ring
      rw [ZMod.natCast_eq_zero_iff] at hc
      exact absurd hc (by decide +kernel)
    have h1 := ZMod.pow_card_sub_one_eq_one hy0
    have he : secpPn - 1 = 2 * ((secpPn - 1) / 2) := by decide +kernel
    rw [he, pow_mul, h132] at h1
    have hs := powMod_spec secpPn 256 132 ((secpPn - 1) / 2) 1 (by decide +kernel)
    rw [Nat.cast_one, one_mul, h1, ← Nat.cast_one (R := ZMod secpPn), ZMod.natCast_eq_natCast_iff] at hs
    exact absurd hs (by show ¬ (_ % _ = _ % _); decide +kernel)

/-- A hash function for which `m` and `"0" + m` have the same point. -/
def hashTen (m : List UInt8) : List UInt8 → List UInt8 := fun b => List.replicate 31 0 ++ [if b = 49 :: 48 :: m then 1 else 5]

example (m : List UInt8) : ∃ p, mapToGroup (idealExt (hashTen m)) m = .ok (some p) ∧
    mapToGroup (idealExt (hashTen m)) (48 :: m) = .ok (some p) := by
  have h1 : Spec.twos (List.replicate 31 0 ++ [1]) % secpP = 1 := by decide +kernel
  have h5 : Spec.twos (List.replicate 31 0 ++ [5]) % secpP = 5 := by decide +kernel
  have hc : ∀ n i, candidateX (idealExt (hashTen m)) n i = if Spec.decNat i ++ n = 49 :: 48 :: m then 1 else 5 := fun n i => by
    show Spec.twos (List.replicate 31 0 ++ [if Spec.decNat i ++ n = 49 :: 48 :: m then 1 else 5]) % secpP = _
    by_cases h : Spec.decNat i ++ n = 49 :: 48 :: m
    · rw [if_pos h, if_pos h, h1]
    · rw [if_neg h, if_neg h, h5]
  refine C106_collision (idealExt_ok _ fun b => by simp [hashTen]) m (fun k hk => ?_) ?_ ?_
  · rw [hc, if_neg]
    · exact onCurveX_one_five.2
    · intro h
      have hl := congrArg List.length h
      have : (Spec.decNat k).length = 1 := by interval_cases k <;> simp [Spec.decNat]
      simp only [List.length_append, List.length_cons, this] at hl
      omega
  · rw [hc, if_pos (by simp [Spec.decNat, Spec.asciiDigit])]
    exact onCurveX_one_five.1
  · rw [hc, if_neg (by simp [Spec.decNat])]
    exact onCurveX_one_five.2

end Verif
