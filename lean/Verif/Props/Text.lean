import Verif.Spec.Text
import Verif.Lemmas.Transcript
import Verif.Props.CcsMisc
import Verif.Props.Bytes
import Verif.Lemmas.Sha256

/-!
# C86: the texts of numbers and group elements, and the challenges as hashes of them
-/

namespace Verif

open Spec

private theorem ascii_append (s t : String) : ascii (s ++ t) = ascii s ++ ascii t := by
  simp only [ascii, String.toList_append, List.map_append]

private theorem digit_ascii (d : Nat) (h : d < 10) : [UInt8.ofNat (48 + d)] = [d.digitChar].map fun c => UInt8.ofNat c.toNat := by
  interval_cases d <;> rfl

private theorem nat_ascii (n : Nat) : decimalNat n = ascii (toString n) := by
  have key : ∀ n, 0 < n → (Nat.digits 10 n).reverse.map (fun d => UInt8.ofNat (48 + d)) =
      (Nat.toDigits 10 n).map fun c => UInt8.ofNat c.toNat := by
    intro n
    induction n using Nat.strong_induction_on with
    | _ n ih =>
      intro h
      rw [Nat.digits_def' (by decide) h, Nat.toDigits_eq_if (by decide), List.reverse_cons, List.map_append]
      split
      · rename_i hlt
        rw [Nat.div_eq_of_lt hlt, Nat.mod_eq_of_lt hlt]
        simpa using digit_ascii n hlt
      · rename_i hlt
        rw [ih (n / 10) (by omega) (by omega), List.map_append]
        congr 1
        exact digit_ascii _ (Nat.mod_lt _ (by decide))
  rw [decimalNat]
  show _ = (Nat.repr n).toList.map _
  rw [Nat.toList_repr]
  split
  · subst n; rfl
  · exact key n (by omega)

private theorem natCast_text (n : Nat) : toString ((n : Nat) : Int) = toString n := rfl

private theorem nonneg_text {v : Int} (h : 0 ≤ v) : decimalNat v.toNat = ascii (toString v) := by
  obtain ⟨n, rfl⟩ := Int.eq_ofNat_of_zero_le h
  exact nat_ascii n

/-- C86: numbers are printed in decimal, `<nil>` for a nil pointer. -/
theorem C86_int (v : Option Int) : decimal v = ascii (intText v) := by
  match v with
  | none => rfl
  | some (.ofNat n) =>
    rw [decimal, if_neg (by simp)]
    exact nat_ascii n
  | some (.negSucc n) =>
    rw [decimal, if_pos (Int.negSucc_lt_zero n)]
    show _ = ascii ("-" ++ toString (n + 1))
    rw [ascii_append, ← nat_ascii]
    rfl

private theorem fp2_ascii (e : GfP2) : e.string = ascii (fp2Text e) := by
  have h : ∀ v : Int, decimalNat (v % bnP).toNat = ascii (toString (v % bnP)) :=
    fun v => nonneg_text (Int.emod_nonneg _ (by decide))
  rw [GfP2.string, h, h]
  simp only [fp2Text, ascii_append]
  rfl

private theorem fp6_ascii (e : GfP6) : e.string = ascii (fp6Text e) := by
  rw [GfP6.string, fp2_ascii, fp2_ascii, fp2_ascii]
  simp only [fp6Text, ascii_append]
  rfl

/-- C86: the texts of points of secp256k1. -/
theorem C86_p256 (p : P256) : p.string = ascii (p256Text p) := by
  rw [P256.string, C86_int, C86_int]
  simp only [p256Text, ascii_append]
  rfl

/-- C86: the texts of elements of `G1`. -/
theorem C86_G1 (a : CurvePoint) : (G1.string a).1 = ascii (g1Text a.makeAffine.x a.makeAffine.y) := by
  rw [G1.string, CurvePoint.string, C86_int, C86_int]
  simp only [g1Text, ascii_append]
  rfl

/-- C86: the texts of elements of `G2`. -/
theorem C86_G2 (a : TwistPoint) : G2.string a = ascii (g2Text a) := by
  rw [G2.string, TwistPoint.string, fp2_ascii, fp2_ascii, fp2_ascii]
  simp only [g2Text, ascii_append]
  rfl

/-- C86: the texts of elements of `GT`. -/
theorem C86_GT (a : GfP12) : GT.string a = ascii (gtText a) := by
  rw [GT.string, GfP12.string, fp6_ascii, fp6_ascii]
  simp only [gtText, ascii_append]
  rfl

/-- The generator `(1, -2)`, and a coordinate that is not reduced. -/
example : g1Text 1 (-2) = "bn256.G1(1, -2)" ∧ fp2Text ⟨bnP + 7, -bnP⟩ = "(7,0)" ∧
    p256Text ⟨none, none⟩ = "P256(<nil>,<nil>)" ∧ ascii "(0,1)" = [40, 48, 44, 49, 41] := by
  decide +kernel

/-! ## The challenges -/

private theorem ascii_join (l : List String) : ascii (String.join l) = (l.map ascii).flatten := by
  induction l with
  | nil => rfl
  | cons s l ih => rw [String.join_cons, ascii_append, ih, List.map_cons, List.flatten_cons]

private theorem ascii_join_map {A : Type} (f : A → List UInt8) (t : A → String) (h : ∀ x, f x = ascii (t x)) (a : List A) :
    (a.map f).flatten = ascii (String.join (a.map t)) := by
  have hf : f = ascii ∘ t := funext h
  rw [ascii_join, List.map_map, hf]

private theorem fromByteArray_ne {bs : List UInt8} (h : bs ≠ []) : fromByteArray bs = .ok (some (twos bs)) := by
  rw [C02_fromByteArray, if_neg h]

/-- C86: the challenge of the set-membership proof of ccs08. -/
theorem C86_hashSet (sha : List UInt8 → List UInt8) (hs : ∀ m, sha m ≠ []) (a : GfP12) (D : TwistPoint) :
    hashSet sha a D = .ok (some (twos (sha (ascii (gtText a ++ g2Text D))))) := by
  rw [hashSet, fromByteArray_ne (hs _), C86_GT, C86_G2, ascii_append]

/-- With SHA-256 (its values have 32 bytes). -/
example := C86_hashSet Sha256.sha256 (fun m h => by simpa [h] using Sha256.sha256_length m) .one .gen

/-- C86: the challenge of the range proof of ccs08. -/
theorem C86_hashUL (sha : List UInt8 → List UInt8) (hs : ∀ m, sha m ≠ []) (a : List GfP12) (D : TwistPoint) :
    hashUL sha a D = .ok (some (twos (sha (ascii (String.join (a.map gtText) ++ g2Text D))))) := by
  have h := ascii_join_map GT.string gtText C86_GT a
  rw [hashUL, fromByteArray_ne (hs _), C86_G2, h, ascii_append]

example := C86_hashUL Sha256.sha256 (fun m h => by simpa [h] using Sha256.sha256_length m) [.one, .zero] .gen

/-- C86: the two challenges of `HashBP` are one number, the unsigned value of the hash of the four coordinates, written
without separators. -/
theorem C86_hashBP (E : Ext) (a s : P256) :
    hashBP E a s =
      ((unsigned (E.sha256 (ascii (intText a.X ++ intText a.Y ++ intText s.X ++ intText s.Y))) : Int),
       (unsigned (E.sha256 (ascii (intText a.X ++ intText a.Y ++ intText s.X ++ intText s.Y))) : Int)) := by
  rw [hashBP]
  simp only [C86_int, ← ascii_append, setBytes_eq]

/-- What `hashIP` writes for the generators. -/
def gensText (g h : List P256) : String := String.join (List.zipWith (fun a b => p256Text a ++ p256Text b) g h)

private theorem hashIPLoop_text (g h : List P256) (k i : Nat) (hg : i + k ≤ g.length) (hh : i + k ≤ h.length) :
    hashIPLoop g h k i = .ok (ascii (gensText ((g.drop i).take k) ((h.drop i).take k))) := by
  induction k generalizing i with
  | zero => rfl
  | succ k ih =>
    have eg : (g.drop i).take (k + 1) = g[i] :: (g.drop (i + 1)).take k := by
      rw [List.drop_eq_getElem_cons (by omega), List.take_succ_cons]
    have eh : (h.drop i).take (k + 1) = h[i] :: (h.drop (i + 1)).take k := by
      rw [List.drop_eq_getElem_cons (by omega), List.take_succ_cons]
    have ig : idx g i = .ok g[i] := by rw [idx, List.getElem?_eq_getElem (by omega)]; rfl
    have ih' : idx h i = .ok h[i] := by rw [idx, List.getElem?_eq_getElem (by omega)]; rfl
    rw [hashIPLoop, ig, ih', ih (i + 1) (by omega) (by omega), eg, eh]
    simp only [gensText, List.zipWith_cons_cons, String.join_cons, ascii_append, C86_p256]
    rfl

/-- C86: the challenge of the inner-product argument, for as many generators as there are. -/
theorem C86_hashIP (E : Ext) (hs : ∀ m, E.sha256 m ≠ []) (g h : List P256) (P : P256) (c : Int) (n : Nat)
    (hg : n ≤ g.length) (hh : n ≤ h.length) :
    hashIP E g h P c n =
      .ok (some (twos (E.sha256 (ascii (p256Text P ++ gensText (g.take n) (h.take n) ++ toString c))))) := by
  have e : hashIPInput g h P c n = .ok (ascii (p256Text P ++ gensText (g.take n) (h.take n) ++ toString c)) := by
    rw [hashIPInput, Int.toNat_natCast, hashIPLoop_text g h n 0 (by omega) (by omega), C86_p256, C86_int, ascii_append, ascii_append]
    rfl
  rw [hashIP, e]
  exact fromByteArray_ne (hs _)

example := C86_hashIP (idealExt Sha256.sha256) (fun m (h : Sha256.sha256 m = []) => by simpa [h] using Sha256.sha256_length m)
  [⟨some 1, some 2⟩, ⟨some 5, some 6⟩] [⟨some 3, none⟩, ⟨none, none⟩] ⟨some 7, some 8⟩ (-9) 2 (by decide) (by decide)

private theorem hashIPLoop_short (g h : List P256) (k i : Nat) (hk : 0 < k) (hl : min g.length h.length < i + k) :
    hashIPLoop g h k i = .panic := by
  induction k generalizing i with
  | zero => omega
  | succ k ih =>
    rw [hashIPLoop]
    by_cases h1 : i < g.length
    · by_cases h2 : i < h.length
      · have e1 : idx g i = .ok g[i] := by rw [idx, List.getElem?_eq_getElem h1]; rfl
        have e2 : idx h i = .ok h[i] := by rw [idx, List.getElem?_eq_getElem h2]; rfl
        rw [e1, e2, ih (i + 1) (by omega) (by omega)]
        rfl
      · have e1 : idx g i = .ok g[i] := by rw [idx, List.getElem?_eq_getElem h1]; rfl
        have e2 : idx h i = .panic := by rw [idx, List.getElem?_eq_none (by omega)]; rfl
        rw [e1, e2]
        rfl
    · have e1 : idx g i = .panic := by rw [idx, List.getElem?_eq_none (by omega)]; rfl
      rw [e1]
      rfl

/-- C86: with too few generators `hashIP` panics. -/
theorem C86_hashIP_short (E : Ext) (g h : List P256) (P : P256) (c : Int) (n : Nat)
    (hl : min g.length h.length < n) : hashIP E g h P c n = .panic := by
  rw [hashIP, hashIPInput, Int.toNat_natCast, hashIPLoop_short g h n 0 (by omega) (by omega)]
  rfl

example (E : Ext) := C86_hashIP_short E [⟨some 1, some 2⟩] [] ⟨some 7, some 8⟩ (-9) 1 (by decide)

/-- C86: `HashToInt` in round `i` of `MapToGroup`. -/
theorem C86_hashToInt (E : Ext) (hs : ∀ m, E.sha256 m ≠ []) (m : String) (i : Nat) :
    hashToInt E (decimalNat i ++ ascii m) = .ok (some (twos (E.sha256 (ascii (toString i ++ m))))) := by
  rw [hashToInt, fromByteArray_ne (hs _), nat_ascii, ascii_append]

/-- The text hashed for one pair of generators. -/
example : gensText [⟨some 1, some 2⟩] [⟨some 3, none⟩] = "P256(1,2)P256(3,<nil>)" ∧
    String.join ([0, 1].map fun k : Nat => toString k) ++ "x" = "01x" ∧
    (∀ m, Sha256.sha256 m ≠ []) := by
  refine ⟨by decide +kernel, by decide +kernel, fun m h => ?_⟩
  have := Sha256.sha256_length m
  rw [h] at this
  cases this

end Verif
