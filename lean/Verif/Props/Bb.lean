import Verif.Lemmas.GtExp
import Verif.Props.Arith

/-! # C49, C50: Boneh-Boyen signatures -/

namespace Verif

/-! ## C50 -/

/-- C50: for every private key `Keygen` returns the matching public key, the key itself, and a
non-nil error. -/
theorem C50_keygen (k : Int) :
    ∃ pk, keygen (some k) = ⟨some pk, some k, true⟩ ∧ Rep1 pk (k • bnG1) := by
  obtain ⟨p, hp, hr⟩ := C38_roundtrip _ _ (C34_scalarBaseMult .new k)
  exact ⟨p, by simp [keygen, hp], hr⟩

example : ∃ pk, keygen (some 1234) = ⟨some pk, some 1234, true⟩ ∧ Rep1 pk ((1234 : Int) • bnG1) := C50_keygen 1234

/-- C50: so the error does not distinguish success from a failing random source: it is always set. -/
theorem C50_always (rnd : Option Int) :
    (keygen rnd).err = true ∧ ((keygen rnd).pubk.isSome ↔ rnd.isSome) := by
  cases rnd with
  | none => simp [keygen]
  | some k => obtain ⟨pk, h, _⟩ := C50_keygen k; simp [h]

/-! ## C49 -/

theorem gcd_order_eq_one {k : Int} (h : ¬ k ≡ 0 [ZMOD bnOrder]) : Int.gcd (k % bnOrder) bnOrder = 1 := by
  have e : bnOrder = (bnNn : Int) := bnNn_cast.symm
  rw [Int.gcd_emod, Int.gcd_comm, e, ← Int.isCoprime_iff_gcd_eq_one]
  have hp : Prime (bnNn : Int) := Nat.prime_iff_prime_int.1 Fact.out
  refine (Prime.coprime_iff_not_dvd hp).2 fun hd => h ?_
  rw [e]
  exact (Int.modEq_zero_iff_dvd).2 hd

/-- C49: `Sign` returns `(m+sk)⁻¹` times the generator, for every message and key with
`m + sk ≢ 0`. -/
theorem C49_sign (m sk : Int) (h : ¬ m + sk ≡ 0 [ZMOD bnOrder]) :
    ∃ sig i, bbSign m sk = .ok (some sig) ∧ Rep2 sig (i • bnG2) ∧ PairOk sig ∧
      i * (m + sk) ≡ 1 [ZMOD bnOrder] := by
  obtain ⟨i, hi, hi0, _, hd⟩ := (modInverse_spec ((m + sk) % bnOrder) bnOrder (by decide +kernel)).1
    (gcd_order_eq_one h)
  obtain ⟨sig, hs, hr⟩ := C39_roundtrip _ _ (C36_scalarBaseMult i hi0)
  refine ⟨sig, i, ?_, hr, (C58_invariant sig _).2.1 hs, ?_⟩
  · simp only [bbSign, hi]
    simp only [Res.ofOption, bind, Res.bind, hs]
  · have h1 : i * ((m + sk) % bnOrder) ≡ 1 [ZMOD bnOrder] := (Int.modEq_iff_dvd.2 hd).symm
    exact ((Int.mod_modEq (m + sk) bnOrder).mul_left i).symm.trans h1

/-- The message 42 and the key 1234. -/
example : ∃ sig i, bbSign 42 1234 = .ok (some sig) ∧ Rep2 sig (i • bnG2) ∧ PairOk sig ∧ i * (42 + 1234) ≡ 1 [ZMOD bnOrder] :=
  C49_sign 42 1234 (by decide +kernel)

/-- C49: for the one message `m ≡ -sk`, `Sign` panics. -/
theorem C49_panic (m sk : Int) (h : m + sk ≡ 0 [ZMOD bnOrder]) : bbSign m sk = .panic := by
  have h0 : (m + sk) % bnOrder = 0 := by rw [h]; rfl
  have hn : modInverse ((m + sk) % bnOrder) bnOrder = none :=
    (modInverse_spec _ bnOrder (by decide +kernel)).2 (by rw [h0]; decide +kernel)
  simp only [bbSign, hn]
  rfl

example : bbSign (bnOrder - 5) 5 = .panic := C49_panic _ _ (by decide +kernel)

/-- C49: verdict of `verify` on every element `k·g₂` of the group, for every message and public key
`sk·g₁`, except when the message is congruent to the key (and not to 0). -/
theorem C49_verify (sig : TwistPoint) (pk : CurvePoint) (m sk k : Int) (hs : Rep2 sig (k • bnG2))
    (hok : PairOk sig) (hpk : Rep1 pk (sk • bnG1)) (hc : m ≡ 0 [ZMOD bnOrder] ∨ ¬ m ≡ sk [ZMOD bnOrder]) :
    ∃ b, bbVerify sig m pk = .ok (some b) ∧ (b = true ↔ (m + sk) * k ≡ 1 [ZMOD bnOrder]) := by
  obtain ⟨gm, hg, hr⟩ := C38_roundtrip _ _ (C34_scalarBaseMult .new m)
  refine ⟨_, by simp only [bbVerify, hg]; rfl, ?_⟩
  have h1 := GExp.pair (addSelf_exp1 hr hpk hc) hs hok
  refine (h1.mul gexp_utilE.invert).isOne.trans ?_
  rw [Int.modEq_iff_dvd, Int.modEq_iff_dvd]
  ring_nf

/-- The element `3·g₂` is no signature of 42 under the key 1234. -/
example : ∃ sig pk, Rep2 sig ((3 : Int) • bnG2) ∧ bbVerify sig 42 pk = .ok (some false) := by
  have h1 := C36_scalarBaseMult 3 (by decide)
  have h2 := C34_scalarBaseMult .new 1234
  obtain ⟨sig, h3, h4⟩ := C39_roundtrip _ _ h1
  obtain ⟨b, h5, h6⟩ := C49_verify sig _ 42 1234 3 h4 ((C58_invariant sig _).2.1 h3) h2 (.inr (by decide +kernel))
  have hb : b = false := by
    cases b with
    | false => rfl
    | true => exact absurd (h6.1 rfl) (by decide +kernel)
  exact ⟨sig, _, h4, by rw [h5, hb]⟩

/-- C49: a signature made by `Sign` for `m` is accepted for `m'` exactly when `m' ≡ m`, unless `m'`
is congruent to the private key. -/
theorem C49_sign_verify (m m' sk : Int) (h : ¬ m + sk ≡ 0 [ZMOD bnOrder])
    (hc : m' ≡ 0 [ZMOD bnOrder] ∨ ¬ m' ≡ sk [ZMOD bnOrder]) :
    ∃ sig pk b, bbSign m sk = .ok (some sig) ∧ (keygen (some sk)).pubk = some pk ∧
      bbVerify sig m' pk = .ok (some b) ∧ (b = true ↔ m' ≡ m [ZMOD bnOrder]) := by
  obtain ⟨sig, i, h1, h2, h3, h4⟩ := C49_sign m sk h
  obtain ⟨pk, h5, h6⟩ := C50_keygen sk
  obtain ⟨b, h7, h8⟩ := C49_verify sig pk m' sk i h2 h3 h6 hc
  refine ⟨sig, pk, b, h1, by rw [h5], h7, h8.trans ?_⟩
  constructor
  · intro hv
    have h9 : (m' + sk) * (i * (m + sk)) ≡ m' + sk [ZMOD bnOrder] := by
      simpa using h4.mul_left (m' + sk)
    have h10 : (m' + sk) * i * (m + sk) ≡ m + sk [ZMOD bnOrder] := by
      simpa using hv.mul_right (m + sk)
    rw [mul_assoc] at h10
    exact Int.ModEq.add_right_cancel' sk (h9.symm.trans h10)
  · intro hm
    have := (hm.add_right sk).mul_right i
    rw [mul_comm (m + sk)] at this
    exact this.trans h4

/-- The signature of 42 is not accepted for 43. -/
example : ∃ sig pk, bbSign 42 1234 = .ok (some sig) ∧ (keygen (some 1234)).pubk = some pk ∧ bbVerify sig 43 pk = .ok (some false) := by
  obtain ⟨sig, pk, b, h1, h2, h3, h4⟩ := C49_sign_verify 42 43 1234 (by decide +kernel) (.inr (by decide +kernel))
  have hb : b = false := by
    cases b with
    | false => rfl
    | true => exact absurd (h4.1 rfl) (by decide +kernel)
  exact ⟨sig, pk, h1, h2, by rw [h3, hb]⟩

/-- C49: messages that are equal as integers are a special case. -/
theorem C49_complete (m sk : Int) (h : ¬ m + sk ≡ 0 [ZMOD bnOrder])
    (hc : m ≡ 0 [ZMOD bnOrder] ∨ ¬ m ≡ sk [ZMOD bnOrder]) :
    ∃ sig pk, bbSign m sk = .ok (some sig) ∧ (keygen (some sk)).pubk = some pk ∧
      bbVerify sig m pk = .ok (some true) := by
  obtain ⟨sig, pk, b, h1, h2, h3, h4⟩ := C49_sign_verify m m sk h hc
  exact ⟨sig, pk, h1, h2, by rw [h3, h4.2 rfl]⟩

example : ∃ sig pk, bbSign 42 1234 = .ok (some sig) ∧ (keygen (some 1234)).pubk = some pk ∧ bbVerify sig 42 pk = .ok (some true) :=
  C49_complete 42 1234 (by decide +kernel) (.inr (by decide +kernel))

/-- C49: the exception is real: with private key 1 the signature of the message 1 is rejected. -/
theorem C49_coincidence :
    ∃ sig pk, bbSign 1 1 = .ok (some sig) ∧ (keygen (some 1)).pubk = some pk ∧
      bbVerify sig 1 pk = .ok (some false) := by
  obtain ⟨sig, i, h1, _, _, _⟩ := C49_sign 1 1 (by decide +kernel)
  obtain ⟨pk, h5, _⟩ := C50_keygen 1
  refine ⟨sig, pk, h1, by rw [h5], ?_⟩
  have hw : (match bbSign 1 1, (keygen (some 1)).pubk with
    | .ok (some s), some p => bbVerify s 1 p
    | _, _ => .panic) = .ok (some false) := by decide +kernel
  rw [h1, h5] at hw
  exact hw

/-- The hypotheses hold for the message 42 and the key 1234. -/
example : ¬ (42 : Int) + 1234 ≡ 0 [ZMOD bnOrder] ∧ ¬ (42 : Int) ≡ 1234 [ZMOD bnOrder] := by decide +kernel

/-- and for the message of the panic. -/
example : (bnOrder - 5) + 5 ≡ 0 [ZMOD bnOrder] := by decide +kernel

end Verif
