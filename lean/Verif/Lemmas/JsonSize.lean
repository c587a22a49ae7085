import Verif.Spec.JsonSize
import Verif.Lemmas.BpHonest
import Verif.Lemmas.GoVerify

/-!
# Counting points in the text of proofs
-/

namespace Verif

theorem JsonMembers.isPoint_iff {m : JsonMembers} (h : m.isPoint = true) :
    ∃ v w, m = .cons [88] v (.cons [89] w .nil) := by
  match m, h with
  | .cons k v (.cons k' w .nil), h =>
    simp only [isPoint, Bool.and_eq_true, beq_iff_eq] at h
    exact ⟨v, w, by rw [h.1, h.2]⟩

mutual
theorem Json.pointCount_le (j : Json) : 11 * j.pointCount ≤ j.print.length := by
  match j with
  | .null => simp [Json.pointCount]
  | .bool _ => simp [Json.pointCount]
  | .num _ => simp [Json.pointCount]
  | .str _ => simp [Json.pointCount]
  | .arr .nil => simp [Json.pointCount, JsonList.pointCount]
  | .arr (.cons v l) =>
    have h1 := v.pointCount_le
    have h2 := l.pointCount_le
    simp only [Json.pointCount, JsonList.pointCount, Json.print, List.length_cons, List.length_append]
    omega
  | .obj .nil => simp [Json.pointCount, JsonMembers.pointCount, JsonMembers.isPoint]
  | .obj (.cons k v m) =>
    have h1 := v.pointCount_le
    have h2 := m.pointCount_le
    cases hp : (JsonMembers.cons k v m).isPoint with
    | false =>
      simp only [Json.pointCount, JsonMembers.pointCount, hp, Json.print, List.length_cons, List.length_append, Bool.false_eq_true,
        if_false]
      omega
    | true =>
      obtain ⟨v', w, e⟩ := JsonMembers.isPoint_iff hp
      injection e with e1 e2 e3
      subst e3 e1
      have h3 := w.pointCount_le
      simp only [Json.pointCount, JsonMembers.pointCount, hp, Json.print, List.length_cons, List.length_append, if_true,
        JsonMembers.print, List.length_nil]
      omega
theorem JsonList.pointCount_le (l : JsonList) : 11 * l.pointCount ≤ l.print.length := by
  match l with
  | .nil => simp [JsonList.pointCount]
  | .cons v l =>
    have h1 := v.pointCount_le
    have h2 := l.pointCount_le
    simp only [JsonList.pointCount, JsonList.print, List.length_cons, List.length_append]
    omega
theorem JsonMembers.pointCount_le (m : JsonMembers) : 11 * m.pointCount ≤ m.print.length := by
  match m with
  | .nil => simp [JsonMembers.pointCount]
  | .cons k v m =>
    have h1 := v.pointCount_le
    have h2 := m.pointCount_le
    simp only [JsonMembers.pointCount, JsonMembers.print, List.length_cons, List.length_append]
    omega
end

theorem encInt_points (v : Int) : (encInt v).pointCount = 0 := rfl

theorem encPtrInt_points (v : Option Int) : (encPtr encInt v).pointCount = 0 := by cases v <;> rfl

theorem encP256_points (p : P256) : (encP256 p).pointCount = 1 := by
  simp only [encP256, encObj, Json.pointCount, JsonMembers.pointCount, encPtrInt_points]
  rfl

theorem encPoint_points (p : P256) : (encPoint (some p)).pointCount = 1 := encP256_points p

theorem encElems_points (l : List P256) : (encElems encPoint (l.map some)).pointCount = l.length := by
  induction l with
  | nil => rfl
  | cons p l ih => rw [List.map_cons, encElems, JsonList.pointCount, ih, encPoint_points, List.length_cons, add_comm]

theorem encPoints_points (l : List P256) : (encPoints (points l)).pointCount = l.length := by
  rw [points]
  split
  · rename_i h; rw [h]; rfl
  · exact encElems_points l

theorem encIPParams_points (p : IPParams) : (encIPParams p.toGo).pointCount = p.Gg.length + p.Hh.length + 3 := by
  simp only [encIPParams, IPParams.toGo, encObj, Json.pointCount, JsonMembers.pointCount, encInt_points, encPtrInt_points,
    encPoint_points, encPoints_points, JsonMembers.isPoint, Bool.false_eq_true, if_false]
  omega

theorem encIPProof_points (p : IPProof) : (encIPProof p.toGo).pointCount =
    p.Ls.length + p.Rs.length + p.Params.Gg.length + p.Params.Hh.length + 7 := by
  simp only [encIPProof, IPProof.toGo, encObj, Json.pointCount, JsonMembers.pointCount, encInt_points, encPtrInt_points,
    encPoint_points, encPoints_points, JsonMembers.isPoint, Bool.false_eq_true, if_false, encIPParams_points]
  omega

theorem encBPProof_points (p : BPProof) : (encBPProof p.toGo).pointCount =
    p.IP.Ls.length + p.IP.Rs.length + p.IP.Params.Gg.length + p.IP.Params.Hh.length +
      p.Params.Gg.length + p.Params.Hh.length + p.ParamsIP.Gg.length + p.ParamsIP.Hh.length + 18 := by
  simp only [encBPProof, encBPParams, BPProof.toGo, encObj, Json.pointCount, JsonMembers.pointCount, encInt_points,
    encPtrInt_points, encPoint_points, encPoints_points, JsonMembers.isPoint, Bool.false_eq_true, if_false,
    encIPParams_points, encIPProof_points]
  omega

end Verif
