import Verif.Lemmas.TextSize
import Verif.Props.Json
import Verif.Props.Bip

/-!
# C98: size of the text of a proof
-/

namespace Verif

/-- C98: the generators are written three times: `Params` is the argument of `Prove`, and the two copies of the
inner-product parameters are a function of it and of `A` and `S`. -/
theorem C98_repeated {E : Ext} (hE : E.Ok) {rnd : BPRand} {secret : Int} {params : BPParams} {n k : Nat}
    (hk : n = 2 ^ k) {G Hh : Nat → Secp} {H : Secp} (hgen : Generators params n G Hh H)
    (lsL : rnd.sL.length = n) (lsR : rnd.sR.length = n)
    {proof : BPProof} (hp : prove E rnd secret params = .ok (some proof)) :
    proof.Params = params ∧ proof.ParamsIP.Gg = params.Gg ∧ proof.IP.Params.Gg = params.Gg ∧
      proof.IP.Params.Hh = proof.ParamsIP.Hh ∧
      updateGenerators E params.Hh (hashBP E proof.A proof.S).1 params.N = .ok proof.ParamsIP.Hh ∧
      proof.ParamsIP.Hh.length = n ∧ proof.IP.Ls.length = k ∧ proof.IP.Rs.length = k := by
  obtain ⟨V, A, S, T1, T2, x, y, z, bl, br, tp, t1, t2, e, hx, hyz, hV, hT1, hT2, ht1, ht2, hA, hS, hbl, hbr,
    htp, hsp, -, -⟩ := prove_head hE (rnd := rnd) (secret := secret) hgen.N hgen.Gg hgen.Hh hgen.H (castL_eq_vec _ lsL)
      (castL_eq_vec _ lsR)
  have hn : 1 ≤ n := by rw [hk]; exact Nat.one_le_two_pow
  rw [e] at hp
  simp only [proveTail, Res.bind_eq_ok] at hp
  obtain ⟨h', u1, oipp, s1, hp⟩ := hp
  have u0 := u1
  rw [hgen.N] at u1 s1
  have hy : n = 1 ∨ ¬ ORDER ∣ y := by
    by_contra hc
    push Not at hc
    rw [updateGenerators_panic (by omega) hc.2] at u1
    cases u1
  obtain ⟨h'', u1', u2⟩ := updateGenerators_rep hE hn hgen.Hh hy
  rw [u1] at u1'
  injection u1' with u1'
  subst u1'
  simp only [setupInnerProduct, if_neg (show ¬ ((n : Int) ≤ 0) by omega), Res.bind_eq_ok, res_ofOption_ok,
    Res.ok.injEq] at s1
  obtain ⟨ou, m1, u, rfl, rfl⟩ := s1
  simp only [Res.bind_eq_ok, res_ofOption_ok, Res.ok.injEq, Option.some.injEq] at hp
  obtain ⟨commit, c1, oip, i1, ip, rfl, rfl⟩ := hp
  obtain ⟨U, hU⟩ := mapToGroup_isPoint hE m1
  have hc := commitInnerProduct_spec hE hgen.Gg u2 c1
  have lbl := castL_inj_length hbl
  have lbr := castL_inj_length hbr
  have lg : params.Gg.length = n := by rw [hgen.Gg.length_eq, vec_length]
  have lh : h'.length = n := by rw [u2.length_eq, vec_length]
  obtain ⟨x', v, P', _, l1, l2, _, e1, _⟩ := proveInnerProduct_spec hE (k := k) (lbl.trans hk) (lbr.trans hk)
    (lg.trans hk) (lh.trans hk) hgen.Gg u2 (Or.inr hU) hc i1
  refine ⟨rfl, rfl, ?_, ?_, ?_, lh, l1, l2⟩
  · show ip.Params.Gg = _
    rw [e1]
  · show ip.Params.Hh = _
    rw [e1]
  · show updateGenerators E params.Hh (hashBP E A S).1 params.N = _
    rw [← hyz]
    exact u0

/-- C98: the text contains six points for each bit of the range, besides the `2k` points of the inner-product
argument and 18 others. -/
theorem C98_points {E : Ext} (hE : E.Ok) {rnd : BPRand} {secret : Int} {params : BPParams} {n k : Nat}
    (hk : n = 2 ^ k) {G Hh : Nat → Secp} {H : Secp} (hgen : Generators params n G Hh H)
    (lsL : rnd.sL.length = n) (lsR : rnd.sR.length = n)
    {proof : BPProof} (hp : prove E rnd secret params = .ok (some proof)) :
    ∃ j, parseJson (marshalBP proof.toGo) = some j ∧ j.pointCount = 6 * n + 2 * k + 18 := by
  refine ⟨_, parseJson_print (encBPProof_wf _), ?_⟩
  obtain ⟨h1, h2, h3, h4, h5, h6, h7, h8⟩ := C98_repeated hE hk hgen lsL lsR hp
  have lg : params.Gg.length = n := by rw [hgen.Gg.length_eq, vec_length]
  have lh : params.Hh.length = n := by rw [hgen.Hh.length_eq, vec_length]
  rw [encBPProof_points, h1, h2, h3, h4, h6, h7, h8, lg, lh]
  omega

/-- C98: the length of a text is at least eleven bytes for each point in it … -/
theorem C98_bytes {s : List UInt8} {j : Json} (h : s = j.print) : 11 * j.pointCount ≤ s.length := by
  rw [h]; exact j.pointCount_le

example : (ascii "[{\"X\":1,\"Y\":2},{\"X\":null,\"Y\":{\"X\":0,\"Y\":0}}]") =
    (Json.arr (.cons (encP256 ⟨some 1, some 2⟩) (.cons (.obj (.cons [88] .null
      (.cons [89] (encP256 ⟨some 0, some 0⟩) .nil))) .nil))).print ∧
    (Json.arr (.cons (encP256 ⟨some 1, some 2⟩) (.cons (.obj (.cons [88] .null
      (.cons [89] (encP256 ⟨some 0, some 0⟩) .nil))) .nil))).pointCount = 3 := by
  constructor
  · decide +kernel
  · rfl

/-- C98: … hence, for proofs, at least linear in the number of bits of the range. -/
theorem C98_length {E : Ext} (hE : E.Ok) {rnd : BPRand} {secret : Int} {params : BPParams} {n k : Nat}
    (hk : n = 2 ^ k) {G Hh : Nat → Secp} {H : Secp} (hgen : Generators params n G Hh H)
    (lsL : rnd.sL.length = n) (lsR : rnd.sR.length = n)
    {proof : BPProof} (hp : prove E rnd secret params = .ok (some proof)) :
    66 * n + 22 * k + 198 ≤ (marshalBP proof.toGo).length := by
  obtain ⟨j, h1, h2⟩ := C98_points hE hk hgen lsL lsR hp
  have e : marshalBP proof.toGo = (encBPProof proof.toGo).print := rfl
  rw [e, parseJson_print (encBPProof_wf _)] at h1
  injection h1 with h1
  have := C98_bytes e
  rw [h1, h2] at this
  omega

/-- C98: if the coordinates of the generators are below `2^256`, so are all numbers of the proof, and the text has at
most `1008 n + 336 k + 4200` bytes. -/
theorem C98_upper {E : Ext} (hE : E.Ok) {rnd : BPRand} {secret : Int} {params : BPParams} {n k : Nat}
    (hk : n = 2 ^ k) (hn : (n : Int) < 2 ^ 63) {G Hh : Nat → Secp} {H : Secp} (hgen : Generators params n G Hh H)
    (bG : params.G.Bounded) (bH : params.H.Bounded) (bGg : ∀ q ∈ params.Gg, q.Bounded) (bHh : ∀ q ∈ params.Hh, q.Bounded)
    (lsL : rnd.sL.length = n) (lsR : rnd.sR.length = n)
    {proof : BPProof} (hp : prove E rnd secret params = .ok (some proof)) :
    (marshalBP proof.toGo).length ≤ 1008 * n + 336 * k + 4200 := by
  obtain ⟨h1, h2, h3, h4, h5, h6, h7, h8⟩ := C98_repeated hE hk hgen lsL lsR hp
  have lg : params.Gg.length = n := by rw [hgen.Gg.length_eq, vec_length]
  have lh : params.Hh.length = n := by rw [hgen.Hh.length_eq, vec_length]
  have t := tidy_prove hE hgen.N hn bG ⟨⟨_, hgen.H⟩, bH⟩
    (fun q hq => ⟨hgen.Gg.arePoints q hq, bGg q hq⟩) (fun q hq => ⟨hgen.Hh.arePoints q hq, bHh q hq⟩) hp
    (by have := prove_int64 hE hn hgen lsL lsR hp proof.IP.N (by simp); omega)
  have := encBPProof_length t
  rw [h1, h2, h3, h4, h6, h7, h8, lg, lh] at this
  rw [marshalBP]
  omega

theorem arePoints_vec {a : List P256} {n : Nat} (h : ArePoints a) (hl : a.length = n) : ∃ G : Nat → Secp, Reps a (vec n G) := by
  obtain ⟨Q, hQ⟩ := h.reps
  have l := hQ.length_eq
  refine ⟨fun i => Q.getD i 0, ?_⟩
  have e : vec n (fun i => Q.getD i 0) = Q := by
    apply List.ext_getElem
    · rw [vec_length, ← hl, l]
    · intro i h1 h2
      simp [vec, h2]
  rwa [e]

/-- The parameters returned by `Setup`, if no pointer is nil, satisfy the condition on generators of C24. -/
theorem setup_generators {E : Ext} (hE : E.Ok) {nan : Int} {b : BitVec 64} {s : BPSetup} {params : BPParams}
    (hb : b.toInt ≠ -2 ^ 63) (hs : setup E nan b = .ok (some s)) (hd : s.deref = .ok params) :
    ∃ k G Hh H, b.toInt = 2 ^ 2 ^ k ∧ Generators params (2 ^ k) G Hh H ∧ k ≤ 5 := by
  obtain ⟨t1, t2, t3, t4, t5⟩ := tidy_setup hE hs hd
  obtain ⟨k, n1, n2, n3, n4, _⟩ := C10_result hE nan b hb hs
  simp only [BPSetup.deref, Res.bind_eq_ok, res_ofOption_ok, Res.ok.injEq] at hd
  obtain ⟨H, _, Gg, e1, Hh, e2, rfl⟩ := hd
  obtain ⟨G, hG⟩ := arePoints_vec (n := 2 ^ k) (fun q hq => (t3 q hq).1) (by rw [← n3]; exact mapM_id_length e1)
  obtain ⟨Hh', hH⟩ := arePoints_vec (n := 2 ^ k) (fun q hq => (t4 q hq).1) (by rw [← n4]; exact mapM_id_length e2)
  obtain ⟨⟨HH, h1⟩, _⟩ := t2
  refine ⟨k, G, Hh', HH, n2, ⟨by rw [n1]; norm_cast, hG, hH, h1⟩, ?_⟩
  have h2 : s.N ≤ 32 := t5
  rw [n1] at h2
  have h3 : 2 ^ k ≤ 2 ^ 5 := by exact_mod_cast h2
  exact (Nat.pow_le_pow_iff_right (a := 2) (by norm_num)).1 h3

/-- C98: in particular for the parameters of `Setup(2^n)`; a proof for the largest range has at most 38136 bytes. -/
theorem C98_setup {E : Ext} (hE : E.Ok) {rnd : BPRand} {secret nan : Int} {b : BitVec 64} {s : BPSetup} {params : BPParams}
    {n : Nat} (hb : b.toInt = 2 ^ n) (hs : setup E nan b = .ok (some s)) (hd : s.deref = .ok params)
    (lsL : rnd.sL.length = n) (lsR : rnd.sR.length = n)
    {proof : BPProof} (hp : prove E rnd secret params = .ok (some proof)) :
    66 * n + 198 ≤ (marshalBP proof.toGo).length ∧ (marshalBP proof.toGo).length ≤ 1008 * n + 5880 ∧
      (marshalBP proof.toGo).length ≤ 38136 := by
  obtain ⟨t1, t2, t3, t4, _⟩ := tidy_setup hE hs hd
  have hb' : b.toInt ≠ -2 ^ 63 := by
    rw [hb]
    have : (0 : Int) < 2 ^ n := by positivity
    omega
  obtain ⟨k, G, Hh, H, h1, hgen, h5⟩ := setup_generators hE hb' hs hd
  have hk : n = 2 ^ k := by
    rw [hb] at h1
    exact Nat.pow_right_injective (le_refl 2) (by exact_mod_cast h1)
  subst hk
  have h32 : 2 ^ k ≤ 2 ^ 5 := Nat.pow_le_pow_right (by norm_num) h5
  have hn : ((2 ^ k : Nat) : Int) < 2 ^ 63 := by
    have : ((2 ^ k : Nat) : Int) ≤ ((2 ^ 5 : Nat) : Int) := Int.ofNat_le.2 h32
    have h' : ((2 ^ 5 : Nat) : Int) < 2 ^ 63 := by norm_num
    omega
  have h := C98_upper hE rfl hn hgen t1 t2.2 (fun q hq => (t3 q hq).2) (fun q hq => (t4 q hq).2) lsL lsR hp
  have h' := C98_length hE rfl hgen lsL lsR hp
  omega

/-- For the largest range end, with a hash function for which `Prove` succeeds. -/
example : ∃ (E : Ext) (s : BPSetup) (params : BPParams) (proof : BPProof), E.Ok ∧
    setup E 0 (BitVec.ofInt 64 (2 ^ 32)) = .ok (some s) ∧ s.deref = .ok params ∧
    prove E ⟨1, 1, List.replicate 32 1, List.replicate 32 1, 2, 1, 1⟩ 1000 params = .ok (some proof) ∧
    2310 ≤ (marshalBP proof.toGo).length ∧ (marshalBP proof.toGo).length ≤ 38136 := by
  have hE := idealExt_ok hashOne (fun _ => rfl)
  have hb : (BitVec.ofInt 64 (2 ^ 32)).toInt ≠ -2 ^ 63 := by decide
  obtain ⟨s, hs⟩ := (C10_accepts_iff hE 0 (BitVec.ofInt 64 (2 ^ 32)) hb).2 (by decide)
  obtain ⟨t1, t2⟩ := C56_table hE 0 _ hb hs
  obtain ⟨k, n1, n2, n3, n4, _⟩ := C10_result hE 0 _ hb hs
  have some_of : ∀ {l : List (Option P256)} {f : Nat → List UInt8}, l.length = 2 ^ k →
      (∀ i < 2 ^ k, ∃ o, l[i]? = some o ∧ mapToGroup (idealExt hashOne) (f i) = .ok o) → ∀ o ∈ l, o ≠ none := by
    intro l f hl h o ho
    obtain ⟨i, hi, rfl⟩ := List.mem_iff_getElem.1 ho
    obtain ⟨o', h1, h2⟩ := h i (hl ▸ hi)
    obtain ⟨u, hu⟩ := mapToGroup_hashOne (f i)
    rw [hu, Res.ok.injEq] at h2
    rw [List.getElem?_eq_getElem hi, Option.some.injEq] at h1
    rw [h1, ← h2]
    simp
  have hlt : ∀ i : Nat, i < 2 ^ k → (i : Int) < s.N := by
    intro i hi; rw [n1]; exact_mod_cast hi
  obtain ⟨gs, g1⟩ := mapM_id_exists (some_of n3 (f := fun i => Seed.bytes (.g i)) (fun i hi => (t2 i (hlt i hi)).1))
  obtain ⟨hs', g2⟩ := mapM_id_exists (some_of n4 (f := fun i => Seed.bytes (.h i)) (fun i hi => (t2 i (hlt i hi)).2))
  obtain ⟨u, hu⟩ := mapToGroup_hashOne (Seed.bytes .H)
  rw [hu, Res.ok.injEq] at t1
  have hd : s.deref = .ok { N := s.N, G := s.G, H := u, Gg := gs, Hh := hs' } := by
    rw [BPSetup.deref, ← t1, g1, g2]; rfl
  obtain ⟨k', G, Hh, H, h1, hgen, h5⟩ := setup_generators hE hb hs hd
  have hk : 32 = 2 ^ k' := by
    have e : (BitVec.ofInt 64 (2 ^ 32)).toInt = 2 ^ 32 := by decide
    rw [e] at h1
    exact Nat.pow_right_injective (le_refl 2) (by exact_mod_cast h1)
  rw [← hk] at hgen
  obtain ⟨proof, hp⟩ := C24_returns hE (rnd := ⟨1, 1, List.replicate 32 1, List.replicate 32 1, 2, 1, 1⟩) (secret := 1000)
    hk hgen rfl rfl hashOne_order (mapToGroup_hashOne _)
  have := C98_setup hE (n := 32) (by decide) hs hd rfl rfl hp
  exact ⟨_, s, _, proof, hE, hs, hd, hp, by omega, this.2.2⟩

/-- C98: a proof for an interval consists of two proofs, each with its own copies. -/
theorem C98_generic {E : Ext} (hE : E.Ok) {r1 r2 : BPRand} {s1 s2 : Int} {params : BPParams} {n k : Nat}
    (hk : n = 2 ^ k) {G Hh : Nat → Secp} {H : Secp} (hgen : Generators params n G Hh H)
    (l1 : r1.sL.length = n ∧ r1.sR.length = n) (l2 : r2.sL.length = n ∧ r2.sR.length = n) {p : BPRPProof}
    (h1 : prove E r1 s1 params = .ok (some p.P1)) (h2 : prove E r2 s2 params = .ok (some p.P2)) :
    ∃ j, parseJson (marshalBPRP p.toGo) = some j ∧ j.pointCount = 12 * n + 4 * k + 36 ∧
      132 * n ≤ (marshalBPRP p.toGo).length := by
  obtain ⟨j1, a1, c1⟩ := C98_points hE hk hgen l1.1 l1.2 h1
  obtain ⟨j2, a2, c2⟩ := C98_points hE hk hgen l2.1 l2.2 h2
  rw [marshalBP, parseJson_print (encBPProof_wf _)] at a1 a2
  injection a1 with a1
  injection a2 with a2
  have hc : (encBPRPProof p.toGo).pointCount = 12 * n + 4 * k + 36 := by
    simp only [encBPRPProof, BPRPProof.toGo, encObj, a1, a2, Json.pointCount, JsonMembers.pointCount, c1, c2]
    rw [if_neg (show ¬ (JsonMembers.cons (ascii "P1") j1 (.cons (ascii "P2") j2 .nil)).isPoint = true from Bool.false_ne_true)]
    omega
  refine ⟨_, parseJson_print (encBPRPProof_wf _), hc, ?_⟩
  have : 11 * (encBPRPProof p.toGo).pointCount ≤ (marshalBPRP p.toGo).length := C98_bytes rfl
  rw [hc] at this
  omega

/-- The proof of the example in `Props/Bp.lean` is for two bits. -/
example : ∃ (E : Ext) (proof : BPProof) (j : Json), prove E (exRand 1) 1 exBP = .ok (some proof) ∧
    parseJson (marshalBP proof.toGo) = some j ∧ j.pointCount = 32 ∧ 352 ≤ (marshalBP proof.toGo).length ∧
    proof.ParamsIP.Gg = exBP.Gg ∧ proof.IP.Params.Hh.length = 2 := by
  have hE := idealExt_ok hashOne (fun _ => rfl)
  obtain ⟨p1, h1, a1⟩ := exBP_honest 1 1 (Or.inr rfl) rfl
  obtain ⟨j, h2, h3⟩ := C98_points hE (k := 1) rfl exBP_generators rfl rfl h1
  have h4 := C98_length hE (k := 1) rfl exBP_generators rfl rfl h1
  obtain ⟨_, h5, _, h6, _, h7, _⟩ := C98_repeated hE (k := 1) rfl exBP_generators rfl rfl h1
  exact ⟨_, p1, j, h1, h2, h3, h4, h5, by rw [h6]; exact h7⟩

example : ∃ (E : Ext) (p : BPRPProof) (j : Json), prove E (exRand 1) 1 exBP = .ok (some p.P1) ∧
    prove E (exRand 1) 5 exBP = .ok (some p.P2) ∧ parseJson (marshalBPRP p.toGo) = some j ∧ j.pointCount = 64 := by
  have hE := idealExt_ok hashOne (fun _ => rfl)
  obtain ⟨p1, h1, _⟩ := exBP_honest 1 1 (Or.inr rfl) rfl
  obtain ⟨p2, h2, _⟩ := exBP_honest 1 5 (Or.inr rfl) rfl
  obtain ⟨j, h3, h4, _⟩ := C98_generic hE (k := 1) rfl exBP_generators ⟨rfl, rfl⟩ ⟨rfl, rfl⟩ (p := ⟨p1, p2⟩) h1 h2
  exact ⟨_, ⟨p1, p2⟩, j, h1, h2, h3, h4⟩

/-- C98: the text of a proof for an interval has at most `2016 n + 672 k + 8420` bytes. -/
theorem C98_generic_upper {E : Ext} (hE : E.Ok) {r1 r2 : BPRand} {s1 s2 : Int} {params : BPParams} {n k : Nat}
    (hk : n = 2 ^ k) (hn : (n : Int) < 2 ^ 63) {G Hh : Nat → Secp} {H : Secp} (hgen : Generators params n G Hh H)
    (bG : params.G.Bounded) (bH : params.H.Bounded) (bGg : ∀ q ∈ params.Gg, q.Bounded) (bHh : ∀ q ∈ params.Hh, q.Bounded)
    (l1 : r1.sL.length = n ∧ r1.sR.length = n) (l2 : r2.sL.length = n ∧ r2.sR.length = n) {p : BPRPProof}
    (h1 : prove E r1 s1 params = .ok (some p.P1)) (h2 : prove E r2 s2 params = .ok (some p.P2)) :
    (marshalBPRP p.toGo).length ≤ 2016 * n + 672 * k + 8420 := by
  have a1 := C98_upper hE hk hn hgen bG bH bGg bHh l1.1 l1.2 h1
  have a2 := C98_upper hE hk hn hgen bG bH bGg bHh l2.1 l2.2 h2
  have e1 : (ascii "P1").length = 2 := by decide +kernel
  have e2 : (ascii "P2").length = 2 := by decide +kernel
  rw [marshalBP] at a1 a2
  simp only [marshalBPRP, encBPRPProof, BPRPProof.toGo, encObj, Json.print, JsonMembers.print, List.length_cons,
    List.length_append, List.length_nil, e1, e2]
  generalize (encBPProof p.P1.toGo).print.length = b1 at *
  generalize (encBPProof p.P2.toGo).print.length = b2 at *
  clear * - a1 a2
  omega

example : ∃ (E : Ext) (p : BPRPProof), prove E (exRand 1) 1 exBP = .ok (some p.P1) ∧
    prove E (exRand 1) 5 exBP = .ok (some p.P2) ∧ (marshalBP p.P1.toGo).length ≤ 6552 ∧
    (marshalBPRP p.toGo).length ≤ 13124 := by
  have hE := idealExt_ok hashOne (fun _ => rfl)
  obtain ⟨p1, h1, _⟩ := exBP_honest 1 1 (Or.inr rfl) rfl
  obtain ⟨p2, h2, _⟩ := exBP_honest 1 5 (Or.inr rfl) rfl
  have t : ∀ r : Fn, (mulG r).Bounded := fun r => by
    by_cases h : r • secpG = 0
    · rw [mulG, h]; exact tidy_infinity.2
    · exact (tidy_of_fin ((rep_canonP _).fin h)).2
  have tg : ∀ q ∈ exBP.Gg, q.Bounded := by
    intro q hq
    simp only [exBP, List.mem_cons, List.not_mem_nil, or_false] at hq
    rcases hq with rfl | rfl <;> exact t _
  have th : ∀ q ∈ exBP.Hh, q.Bounded := by
    intro q hq
    simp only [exBP, List.mem_cons, List.not_mem_nil, or_false] at hq
    rcases hq with rfl | rfl <;> exact t _
  have a1 := C98_upper hE (k := 1) rfl (by norm_num) exBP_generators (t 1) (t 1000) tg th rfl rfl h1
  have a2 := C98_generic_upper hE (k := 1) rfl (by norm_num) exBP_generators (t 1) (t 1000) tg th ⟨rfl, rfl⟩ ⟨rfl, rfl⟩
    (p := ⟨p1, p2⟩) h1 h2
  exact ⟨_, ⟨p1, p2⟩, h1, h2, a1, a2⟩

end Verif
