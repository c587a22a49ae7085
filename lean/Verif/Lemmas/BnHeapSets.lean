import Verif.Lemmas.BnHeapApi

/-! # The methods of `gfP2`, `gfP6` and `gfP12` as a caller sees them -/

namespace Verif

open BigM

instance (power : Int) : Op1 (fun c a => Gf2.exp c a power) (fun a => a.exp power) where
  apart {s Δ d a v w} h := by
    unfold Gf2.exp
    refine Wp.bind (wp_new h) fun sum _ ⟨_, h⟩ => ?_
    refine Wp.bind (wp_op0 h) fun _ _ h => ?_
    refine Wp.bind (wp_new h) fun t _ ⟨w0, h⟩ => ?_
    have p : List.Perm (own t w0 :: own sum GfP2.one :: own d v :: own a w :: Δ)
        (own sum GfP2.one :: own t w0 :: own a w :: own d v :: Δ) :=
      (List.Perm.swap _ _ _).trans (((List.Perm.swap _ _ _).cons _).cons _)
    refine Wp.bind (Gf2.wp_expLoop power _ (h.perm p)) fun _ _ ⟨w', h⟩ => ?_
    refine Wp.bind (wp_op1 h) fun _ _ h => ?_
    refine Wp.bind (wp_put h) fun _ _ h => ?_
    exact (wp_put h).mono fun _ _ h => h.perm (List.Perm.swap _ _ _)
  same {s Δ d v} h := by
    unfold Gf2.exp
    refine Wp.bind (wp_new h) fun sum _ ⟨_, h⟩ => ?_
    refine Wp.bind (wp_op0 h) fun _ _ h => ?_
    refine Wp.bind (wp_new h) fun t _ ⟨w0, h⟩ => ?_
    have p : List.Perm (own t w0 :: own sum GfP2.one :: own d v :: Δ) (own sum GfP2.one :: own t w0 :: own d v :: Δ) :=
      List.Perm.swap _ _ _
    refine Wp.bind (Gf2.wp_expLoop power _ (h.perm p)) fun _ _ ⟨w', h⟩ => ?_
    refine Wp.bind (wp_op1 h) fun _ _ h => ?_
    refine Wp.bind (wp_put h) fun _ _ h => ?_
    exact (wp_put h).mono fun _ _ h => h

section
variable {A V B W : Type} [Ob A V] [HeapObj A V] [ObjLaw A] [Ob B W] {s : BigHeap} {pl : Option (List Cell)} {e a b : A} {c : B} {w : W}

omit [ObjLaw A] [Ob A V] in
/-- From `Gives`, for a method that is called for its effect. -/
theorem effect_gives {m : BigM Unit} {v : V} (h : Gives (m >>= fun _ => pure e) s (some e) v) :
    Effect m s (HeapObj.cells e) fun _ s' => Live s' e ∧ HeapObj.val s'.mem e = v := by
  obtain ⟨r, s', h1, h2, h3, h4, h5, h6, h7, -⟩ := h
  obtain rfl := h7 e rfl
  obtain ⟨⟨u, s1⟩, h8, h9⟩ : ∃ x, m s = .ok x ∧ (pure r : BigM A) x.2 = .ok (r, s') := by
    have h1 : (m s >>= fun x => (pure r : BigM A) x.2) = .ok (r, s') := h1
    cases hm : m s with
    | ok x => rw [hm] at h1; exact ⟨x, rfl, h1⟩
    | panic => rw [hm] at h1; cases h1
  obtain rfl : s1 = s' := congrArg Prod.snd (Res.ok.inj h9)
  exact ⟨(), s1, h8, h2, h3, h4, h5, h6⟩

theorem sets_self {m : A → BigM Unit} {f : V → V} (hpl : pl = none ∨ pl = some []) (hs : s.pool = none) (he : Live s e)
    (run : ∀ {s : BigHeap} {Δ : List (List (Cell × Int))} {d : A} {v : V}, Rel s (own d v :: Δ) →
      Wp (m d) s fun _ s' => Rel s' (own d (f v) :: Δ)) :
    Effect (withPool pl (m e)) s (HeapObj.cells e) fun _ s' => Live s' e ∧ HeapObj.val s'.mem e = f (HeapObj.val s.mem e) := by
  refine effect_gives (gives_old (E := []) (known1 hs he) fun rest h => ?_)
  refine Wp.bind (wp_withPool' hpl h fun _ _ _ h => run h) fun _ _ h => ?_
  exact Wp.pure ⟨rfl, h⟩

theorem sets_op1 {m : A → A → BigM Unit} {f : V → V} [Op1 m f] (hpl : pl = none ∨ pl = some []) (hs : s.pool = none) (he : Live s e)
    (ha : Live s a) (hea : SameOrDisj e a) :
    Effect (withPool pl (m e a)) s (HeapObj.cells e) fun _ s' => Live s' e ∧ HeapObj.val s'.mem e = f (HeapObj.val s.mem a) := by
  rcases hea with rfl | hea
  · exact sets_self (m := fun d => m d d) hpl hs he fun h => Op1.same h
  · refine effect_gives (gives_old (known2 hs he ha hea) fun rest h => ?_)
    refine Wp.bind (wp_withPool' hpl h fun _ _ _ h => Op1.apart h) fun _ _ h => ?_
    exact Wp.pure ⟨rfl, h⟩

theorem sets_op2 {m : A → A → A → BigM Unit} {f : V → V → V} [Op2 m f] (hpl : pl = none ∨ pl = some []) (hs : s.pool = none)
    (he : Live s e) (ha : Live s a) (hb : Live s b) (hea : SameOrDisj e a) (heb : SameOrDisj e b) (hab : SameOrDisj a b) :
    Effect (withPool pl (m e a b)) s (HeapObj.cells e) fun _ s' =>
      Live s' e ∧ HeapObj.val s'.mem e = f (HeapObj.val s.mem a) (HeapObj.val s.mem b) := by
  rcases hea with rfl | hea
  · rcases heb with rfl | heb
    · exact sets_self (m := fun d => m d d d) (f := fun v => f v v) hpl hs he fun h => Op2.all h
    · refine effect_gives (gives_old (known2 hs he hb heb) fun rest h => ?_)
      refine Wp.bind (wp_withPool' hpl h fun _ _ _ h => Op2.left h) fun _ _ h => ?_
      exact Wp.pure ⟨rfl, h⟩
  · rcases heb with rfl | heb
    · refine effect_gives (gives_old (known2 hs he ha hea) fun rest h => ?_)
      refine Wp.bind (wp_withPool' hpl h fun _ _ _ h => Op2.right h) fun _ _ h => ?_
      exact Wp.pure ⟨rfl, h⟩
    · rcases hab with rfl | hab
      · refine effect_gives (gives_old (known2 hs he ha hea) fun rest h => ?_)
        refine Wp.bind (wp_withPool' hpl h fun _ _ _ h => Op2.args h) fun _ _ h => ?_
        exact Wp.pure ⟨rfl, h⟩
      · refine effect_gives (gives_old (known3 hs he ha hb hea heb hab) fun rest h => ?_)
        refine Wp.bind (wp_withPool' hpl h fun _ _ _ h => Op2.apart h) fun _ _ h => ?_
        exact Wp.pure ⟨rfl, h⟩

/-- With an argument of another type, which has no part in common with the others. -/
theorem sets_opM {m : A → A → B → BigM Unit} {f : V → W → V} [OpM m f] (hpl : pl = none ∨ pl = some []) (hs : s.pool = none)
    (he : Live s e) (ha : Live s a) (hc : LiveCells s ((own c w).map Prod.fst)) (hv : ∀ p ∈ own c w, s.mem p.1 = p.2)
    (hea : SameOrDisj e a) (hec : Disj (HeapObj.cells e) ((own c w).map Prod.fst))
    (hac : Disj (HeapObj.cells a) ((own c w).map Prod.fst)) :
    Effect (withPool pl (m e a c)) s (HeapObj.cells e) fun _ s' =>
      Live s' e ∧ HeapObj.val s'.mem e = f (HeapObj.val s.mem a) w := by
  have hk := known_cons (known_nil hs) hc hv disj_nil
  have hec' : Disj (HeapObj.cells e) (([own c w] : List (List (Cell × Int))).flatten.map Prod.fst) := by simpa using hec
  have hac' : Disj (HeapObj.cells a) (([own c w] : List (List (Cell × Int))).flatten.map Prod.fst) := by simpa using hac
  rcases hea with rfl | hea
  · refine effect_gives (gives_old (known_obj hk he hec') fun rest h => ?_)
    refine Wp.bind (wp_withPool' hpl h fun _ _ _ h => OpM.same h) fun _ _ h => ?_
    exact Wp.pure ⟨rfl, h⟩
  · refine effect_gives (gives_old (known_obj (known_obj hk ha hac') he (disj_cons hea hec')) fun rest h => ?_)
    refine Wp.bind (wp_withPool' hpl h fun _ _ _ h => OpM.apart h) fun _ _ h => ?_
    exact Wp.pure ⟨rfl, h⟩

theorem sets_test {β : Type} {m : A → BigM β} {f : V → β} [OpTest m f] (hpl : pl = none ∨ pl = some []) (hs : s.pool = none)
    (he : Live s e) : Returns (withPool pl (m e)) s (f (HeapObj.val s.mem e)) :=
  returns_of (known1 hs he) fun rest hr => wp_withPool (P := fun r => r = f (HeapObj.val s.mem e))
    (Γ' := fun _ => [own e (HeapObj.val s.mem e)] ++ [rest]) hpl hr fun _ _ _ h => OpTest.run h

end

end Verif
