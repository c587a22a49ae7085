import Verif.Model.Bip
import Verif.Lemmas.Parse

/-! # Injectivity of the textual encodings -/

namespace Verif
open Spec

theorem decimal_some (v : Int) : decimal (some v) = decInt v := rfl

theorem decInt_injective {a b : Int} (h : decInt a = decInt b) : a = b := by
  have h1 := convertToBigInt_decInt a
  rw [h, convertToBigInt_decInt] at h1
  injection h1 with h1
  exact h1.symm

/-- Bytes that can occur in a decimal number. -/
theorem decInt_bytes (v : Int) (b : UInt8) (hb : b ∈ decInt v) : b = 45 ∨ IsDigit b := by
  rw [decInt] at hb
  split at hb
  · rcases List.mem_cons.1 hb with rfl | hb
    · exact Or.inl rfl
    · exact Or.inr (decNat_isDigit _ b hb)
  · exact Or.inr (decNat_isDigit _ b hb)

theorem decimal_injective {a b : Option Int} (h : decimal a = decimal b) : a = b := by
  have key : ∀ v : Int, decimal none ≠ decimal (some v) := by
    intro v hc
    have : (60 : UInt8) ∈ decimal (some v) := by rw [← hc]; simp [decimal]
    rw [decimal_some] at this
    rcases decInt_bytes v 60 this with h | h
    · exact absurd h (by decide)
    · exact absurd h (by unfold IsDigit; decide)
  cases a with
  | none => cases b with
    | none => rfl
    | some v => exact absurd h (key v)
  | some u => cases b with
    | none => exact absurd h.symm (key u)
    | some v => rw [decInt_injective (show decInt u = decInt v from h)]

theorem decimal_noSep (o : Option Int) : (44 : UInt8) ∉ decimal o ∧ (41 : UInt8) ∉ decimal o := by
  cases o with
  | none => decide
  | some v =>
    rw [decimal_some]
    constructor <;> intro hc <;> rcases decInt_bytes v _ hc with h | h
    · exact absurd h (by decide)
    · exact absurd h (by unfold IsDigit; decide)
    · exact absurd h (by decide)
    · exact absurd h (by unfold IsDigit; decide)

/-- Splitting at the first occurrence of a separator is unique. -/
theorem split_unique {c : UInt8} {s s' r r' : List UInt8} (h : c ∉ s) (h' : c ∉ s')
    (he : s ++ c :: r = s' ++ c :: r') : s = s' ∧ r = r' := by
  induction s generalizing s' with
  | nil => cases s' with
    | nil => simp only [List.nil_append, List.cons.injEq, true_and] at he; exact ⟨rfl, he⟩
    | cons b s' =>
      simp only [List.nil_append, List.cons_append, List.cons.injEq] at he
      exact absurd (he.1 ▸ List.mem_cons_self) h'
  | cons a s ih => cases s' with
    | nil =>
      simp only [List.nil_append, List.cons_append, List.cons.injEq] at he
      exact absurd (he.1 ▸ List.mem_cons_self) h
    | cons b s' =>
      simp only [List.cons_append, List.cons.injEq] at he
      obtain ⟨e1, e2⟩ := ih (fun hc => h (List.mem_cons_of_mem _ hc))
        (fun hc => h' (List.mem_cons_of_mem _ hc)) he.2
      exact ⟨by rw [he.1, e1], e2⟩

theorem string_prefix {p p' : P256} {r r' : List UInt8} (h : p.string ++ r = p'.string ++ r') :
    p = p' ∧ r = r' := by
  simp only [P256.string, List.append_assoc, List.cons_append, List.nil_append, List.cons.injEq,
    true_and] at h
  obtain ⟨e1, h⟩ := split_unique (decimal_noSep _).1 (decimal_noSep _).1 h
  obtain ⟨e2, h⟩ := split_unique (decimal_noSep _).2 (decimal_noSep _).2 h
  refine ⟨?_, h⟩
  cases p; cases p'
  simp only at e1 e2
  rw [decimal_injective e1, decimal_injective e2]

theorem hashIPLoop_injective {g h g' h' : List P256} {fuel i : Nat} {s s' r r' : List UInt8}
    (e : hashIPLoop g h fuel i = .ok s) (e' : hashIPLoop g' h' fuel i = .ok s')
    (heq : s ++ r = s' ++ r') :
    r = r' ∧ ∀ j, i ≤ j → j < i + fuel → g[j]? = g'[j]? ∧ h[j]? = h'[j]? := by
  induction fuel generalizing i s s' with
  | zero =>
    simp only [hashIPLoop, Res.ok.injEq] at e e'
    subst e e'
    exact ⟨by simpa using heq, fun j h1 h2 => by omega⟩
  | succ fuel ih =>
    simp only [hashIPLoop, Res.bind_eq_ok, idx, Res.ok.injEq] at e e'
    obtain ⟨gi, hgi, hi, hhi, t, ht, rfl⟩ := e
    obtain ⟨gi', hgi', hi', hhi', t', ht', rfl⟩ := e'
    simp only [List.append_assoc] at heq
    obtain ⟨rfl, heq1⟩ := string_prefix heq
    obtain ⟨rfl, heq2⟩ := string_prefix heq1
    obtain ⟨e1, e2⟩ := ih ht ht' heq2
    refine ⟨e1, fun j h1 h2 => ?_⟩
    have conv : ∀ {o : Option P256} {p : P256}, Res.ofOption o = .ok p → o = some p := by
      intro o p h; cases o with
      | none => simp at h
      | some q => simpa using h
    rcases Nat.eq_or_lt_of_le h1 with h | h
    · subst h
      exact ⟨(conv hgi).trans (conv hgi').symm, (conv hhi).trans (conv hhi').symm⟩
    · exact e2 j h (by omega)

end Verif
