import Verif.Cim.Pass2
import Verif.Props.Assoc
/-
The links of the object graph after a list of statements.
-/
namespace Verif
namespace Cim
open Py Hp Xml Spec Props

theorem opp_regular {k : Kind} (h : regular k = true) : regular k.opp = true ∧ k.opp.opp = k := by
  cases k <;> simp_all [regular, Kind.opp]

/-- Giving `a.n` the partner `b` adds the link `a.n – b` in both directions and no other, when neither
end has to give up a partner. -/
theorem give_linked {E : Ends} {V : View} (C : Consistent E V) {k a n i b} (hr : regular k = true) (hni : i ≠ n)
    (ea : E a n = some (k, i)) (eb : E b i = some (k.opp, n))
    (F1 : k.isMany = false → ∀ y, V.one a n = some y → y = b)
    (F2 : k.opp.isMany = false → ∀ y, V.one b i = some y → y = a) :
    Consistent E (V.give k a n i b) ∧
    ∀ x r y, Linked (V.give k a n i b) x r y ↔
      Linked V x r y ∨ (x = a ∧ r = n ∧ y = b) ∨ (x = b ∧ r = i ∧ y = a) := by
  have hne : ¬ (a = b ∧ n = i) := fun hh => hni hh.2.symm
  cases k <;> simp only [regular, Bool.false_eq_true] at hr
  case one2many =>
    simp only [View.give, View.assign]
    have eb : E b i = some (.many2one, n) := eb
    cases ho : V.one a n with
    | none =>
      simp only [if_true]
      have hb : ∀ z, some b = some z → E z i = some (.many2one, n) := by rintro _ ⟨⟩; exact eb
      refine ⟨o2m_consistent C ea hb, fun x r y => ?_⟩
      unfold Linked
      rw [o2m_one, mem_o2m C ea hb, ho]
      grind
    | some z =>
      have := F1 rfl z ho
      subst this
      rw [if_neg (by simp)]
      refine ⟨C, fun x r y => ⟨.inl, ?_⟩⟩
      rintro (h | ⟨rfl, rfl, rfl⟩ | ⟨rfl, rfl, rfl⟩)
      · exact h
      · exact .inl ho
      · exact .inr (C.one_many _ _ _ _ ea ho).2
  case many2one =>
    simp only [View.give]
    have eb : E b i = some (.one2many, n) := eb
    have hb : ∀ z, some a = some z → E z n = some (.many2one, i) := by rintro _ ⟨⟩; exact ea
    refine ⟨o2m_consistent C eb hb, fun x r y => ?_⟩
    have F2 := F2 rfl
    unfold Linked
    rw [o2m_one, mem_o2m C eb hb]
    cases ho : V.one b i with
    | none => grind
    | some z =>
      have := F2 z ho
      subst this
      have hm := (C.one_many _ _ _ _ eb ho).2
      grind
  case one2one =>
    simp only [View.give, View.assign]
    have eb : E b i = some (.one2one, n) := eb
    cases ho : V.one a n with
    | none =>
      simp only [if_true]
      have hb0 : V.one b i = none := by
        cases hb : V.one b i with
        | none => rfl
        | some z =>
          have := F2 rfl z hb
          subst this
          rw [(C.one_one _ _ _ _ eb hb).2] at ho; cases ho
      refine ⟨o2oSome_consistent C ea eb hne, fun x r y => ?_⟩
      rw [o2oSome_eq C ea eb hne]
      unfold Linked
      simp only [setOne_one, setOne_many, o2oNone_one, o2oNone_many, ho, hb0]
      grind
    | some z =>
      have := F1 rfl z ho
      subst this
      rw [if_neg (by simp)]
      refine ⟨C, fun x r y => ⟨.inl, ?_⟩⟩
      rintro (h | ⟨rfl, rfl, rfl⟩ | ⟨rfl, rfl, rfl⟩)
      · exact h
      · exact .inl ho
      · exact .inl (C.one_one _ _ _ _ ea ho).2
  case many2many =>
    simp only [View.give]
    have eb : E b i = some (.many2many, n) := eb
    refine ⟨m2mAdd_consistent C ea eb hne, fun x r y => ?_⟩
    unfold Linked
    rw [m2mAdd_one, mem_m2mAdd V hne]
    grind

/-- Giving `a.n` the partner `b`: no other links are made, and a link stays when neither of its ends is
given another partner. -/
theorem give_local {E : Ends} {V : View} (C : Consistent E V) {k a n i b} (hr : regular k = true) (hni : i ≠ n)
    (ea : E a n = some (k, i)) (eb : E b i = some (k.opp, n)) :
    Consistent E (V.give k a n i b) ∧
    (∀ x r y, Linked (V.give k a n i b) x r y →
      Linked V x r y ∨ (x = a ∧ r = n ∧ y = b) ∨ (x = b ∧ r = i ∧ y = a)) ∧
    ∀ x r y k0 i0, E x r = some (k0, i0) → Linked V x r y →
      (k0.isMany = false → (x = a ∧ r = n → y = b) ∧ (x = b ∧ r = i → y = a)) →
      (k0.opp.isMany = false → (y = a ∧ i0 = n → x = b) ∧ (y = b ∧ i0 = i → x = a)) →
      Linked (V.give k a n i b) x r y := by
  have hne : ¬ (a = b ∧ n = i) := fun hh => hni hh.2.symm
  cases k <;> simp only [regular, Bool.false_eq_true] at hr
  case one2many =>
    simp only [View.give, View.assign]
    have eb : E b i = some (.many2one, n) := eb
    cases ho : V.one a n with
    | none =>
      simp only [if_true]
      have hb : ∀ z, some b = some z → E z i = some (.many2one, n) := by rintro _ ⟨⟩; exact eb
      refine ⟨o2m_consistent C ea hb, fun x r y => ?_, fun x r y k0 i0 e0 => ?_⟩
      · unfold Linked
        rw [o2m_one, mem_o2m C ea hb, ho]
        grind
      · unfold Linked
        rw [o2m_one, mem_o2m C ea hb, ho]
        grind
    | some z =>
      rw [if_neg (by simp)]
      exact ⟨C, fun x r y h => .inl h, fun x r y k0 i0 _ h _ _ => h⟩
  case many2one =>
    simp only [View.give]
    have eb : E b i = some (.one2many, n) := eb
    have hb : ∀ z, some a = some z → E z n = some (.many2one, i) := by rintro _ ⟨⟩; exact ea
    refine ⟨o2m_consistent C eb hb, fun x r y => ?_, fun x r y k0 i0 e0 => ?_⟩
    · unfold Linked
      rw [o2m_one, mem_o2m C eb hb]
      grind
    · unfold Linked
      rw [o2m_one, mem_o2m C eb hb]
      intro hl c1 c2
      by_cases hx : x = b ∧ r = i
      · obtain ⟨rfl, rfl⟩ := hx
        rw [eb] at e0; cases e0
        have := (c1 rfl).2 ⟨rfl, rfl⟩
        subst this
        simp
      · rw [if_neg hx]
        rcases hl with hl | hl
        · exact .inl hl
        · by_cases hh : V.one b i = some x ∧ r = n ∧ y = b
          · obtain ⟨h1, rfl, rfl⟩ := hh
            have := C.one_many _ _ _ _ eb h1
            rw [this.1] at e0; cases e0
            have := (c2 rfl).2 ⟨rfl, rfl⟩
            subst this
            exact .inr (.inr ⟨rfl, rfl, rfl⟩)
          · exact .inr (.inl ⟨hl, hh⟩)
  case one2one =>
    simp only [View.give, View.assign]
    have eb : E b i = some (.one2one, n) := eb
    cases ho : V.one a n with
    | none =>
      simp only [if_true]
      refine ⟨o2oSome_consistent C ea eb hne, fun x r y => ?_, fun x r y k0 i0 e0 => ?_⟩
      · rw [o2oSome_eq C ea eb hne]
        unfold Linked
        simp only [setOne_one, setOne_many, o2oNone_one, o2oNone_many, ho]
        grind
      · rw [o2oSome_eq C ea eb hne]
        unfold Linked
        simp only [setOne_one, setOne_many, o2oNone_one, o2oNone_many, ho]
        have := C.one_one b i n x eb
        have k1 : Kind.one2one.isMany = false := rfl
        have k2 : Kind.one2one.opp.isMany = false := rfl
        grind
    | some z =>
      rw [if_neg (by simp)]
      exact ⟨C, fun x r y h => .inl h, fun x r y k0 i0 _ h _ _ => h⟩
  case many2many =>
    simp only [View.give]
    have eb : E b i = some (.many2many, n) := eb
    refine ⟨m2mAdd_consistent C ea eb hne, fun x r y => ?_, fun x r y k0 i0 _ => ?_⟩
    · unfold Linked
      rw [m2mAdd_one, mem_m2mAdd V hne]
      grind
    · unfold Linked
      rw [m2mAdd_one, mem_m2mAdd V hne]
      grind

/-- The same for replacing the partner of `a.n`. -/
theorem put_linked {E : Ends} {V : View} (C : Consistent E V) {a n i b}
    (ea : E a n = some (.one2many, i)) (eb : E b i = some (.many2one, n))
    (F1 : ∀ y, V.one a n = some y → y = b) :
    ∀ x r y, Linked V x r y ∨ (x = a ∧ r = n ∧ y = b) ∨ (x = b ∧ r = i ∧ y = a) →
      Linked (V.o2m a n i (some b)) x r y := by
  have hb : ∀ z, some b = some z → E z i = some (.many2one, n) := by rintro _ ⟨⟩; exact eb
  intro x r y
  unfold Linked
  rw [o2m_one, mem_o2m C ea hb]
  cases ho : V.one a n with
  | none => grind
  | some z =>
    have := F1 z ho
    subst this
    have hm := (C.one_many _ _ _ _ ea ho).2
    grind

theorem put_local {E : Ends} {V : View} (C : Consistent E V) {a n i b}
    (ea : E a n = some (.one2many, i)) (eb : E b i = some (.many2one, n)) :
    Consistent E (V.o2m a n i (some b)) ∧
    (∀ x r y, Linked (V.o2m a n i (some b)) x r y →
      Linked V x r y ∨ (x = a ∧ r = n ∧ y = b) ∨ (x = b ∧ r = i ∧ y = a)) ∧
    ∀ x r y k0 i0, E x r = some (k0, i0) → Linked V x r y →
      (k0.isMany = false → (x = a ∧ r = n → y = b) ∧ (x = b ∧ r = i → y = a)) →
      (k0.opp.isMany = false → (y = a ∧ i0 = n → x = b) ∧ (y = b ∧ i0 = i → x = a)) →
      Linked (V.o2m a n i (some b)) x r y := by
  have hb : ∀ z, some b = some z → E z i = some (.many2one, n) := by rintro _ ⟨⟩; exact eb
  refine ⟨o2m_consistent C ea hb, fun x r y => ?_, fun x r y k0 i0 e0 hl c1 c2 => ?_⟩
  · unfold Linked
    rw [o2m_one, mem_o2m C ea hb]
    grind
  · unfold Linked at hl ⊢
    rw [o2m_one, mem_o2m C ea hb]
    by_cases hx : x = a ∧ r = n
    · obtain ⟨rfl, rfl⟩ := hx
      rw [ea] at e0; cases e0
      have := (c1 rfl).1 ⟨rfl, rfl⟩
      subst this
      simp
    · rw [if_neg hx]
      rcases hl with hl | hl
      · exact .inl hl
      · by_cases hh : V.one a n = some x ∧ r = i ∧ y = a
        · obtain ⟨h1, rfl, rfl⟩ := hh
          have := C.one_many _ _ _ _ ea h1
          rw [this.1] at e0; cases e0
          have := (c2 rfl).1 ⟨rfl, rfl⟩
          subst this
          exact .inr (.inr ⟨rfl, rfl, rfl⟩)
        · exact .inr (.inl ⟨hl, hh⟩)

/-- The reference a statement is about: the one forwarded to, for a forwarding one. -/
def canon (A : Alts) (a : Addr) (n : Str) : Str :=
  match A a n with
  | some (m, _) => m
  | none => n

theorem canon_none {A : Alts} {a n} (h : A a n = none) : canon A a n = n := by
  unfold canon; rw [h]

theorem canon_some {A : Alts} {a n m p} (h : A a n = some (m, p)) : canon A a n = m := by
  unfold canon; rw [h]

/-- The statement says that `b` is a partner of `a.n`. -/
def Gives (E : Ends) (A : Alts) (d : Dict) (it : Item) (a : Addr) (n : Str) (b : Addr) : Prop :=
  it.obj = a ∧ canon A a it.name = n ∧ (E a n).isSome ∧ ∃ u, it.target = some u ∧ d.lookup u = some b

/-- Some statement says so, from one end or from the other. -/
def Said (E : Ends) (A : Alts) (d : Dict) (its : List Item) (a : Addr) (n : Str) (b : Addr) : Prop :=
  (∃ it ∈ its, Gives E A d it a n b) ∨ ∃ it ∈ its, ∃ k i, E b i = some (k, n) ∧ Gives E A d it b i a

/-- Partners are of matching classes. -/
def Matching (E : Ends) (A : Alts) (d : Dict) (its : List Item) : Prop :=
  ∀ it ∈ its, ∀ a n b k i, Gives E A d it a n b → E a n = some (k, i) →
    E b i = some (k.opp, n) ∧ (A a it.name ≠ none → k = .one2many)

theorem said_cons {E : Ends} {A : Alts} {d : Dict} {it its a n b} :
    Said E A d (it :: its) a n b ↔ Gives E A d it a n b ∨ (∃ k i, E b i = some (k, n) ∧ Gives E A d it b i a) ∨
      Said E A d its a n b := by
  unfold Said
  simp only [List.mem_cons, exists_eq_or_imp]
  grind

/-- The views before and after `a.n` is told to have the partner `b`. -/
structure Told (E : Ends) (V V' : View) (k : Kind) (a : Addr) (n i : Str) (b : Addr) : Prop where
  cons : Consistent E V'
  sub : ∀ x r y, Linked V' x r y → Linked V x r y ∨ (x = a ∧ r = n ∧ y = b) ∨ (x = b ∧ r = i ∧ y = a)
  keep : ∀ x r y k0 i0, E x r = some (k0, i0) → Linked V x r y →
    (k0.isMany = false → (x = a ∧ r = n → y = b) ∧ (x = b ∧ r = i → y = a)) →
    (k0.opp.isMany = false → (y = a ∧ i0 = n → x = b) ∧ (y = b ∧ i0 = i → x = a)) → Linked V' x r y
  made : (k.isMany = false → ∀ y, V.one a n = some y → y = b) →
    (k.opp.isMany = false → ∀ y, V.one b i = some y → y = a) → ∀ x r y,
    (x = a ∧ r = n ∧ y = b) ∨ (x = b ∧ r = i ∧ y = a) → Linked V' x r y

/-- One statement about a reference. -/
theorem step_local {E : Ends} {A : Alts} {d : Dict} {V : View} (C : Consistent E V)
    (hreg : ∀ a n k i, E a n = some (k, i) → regular k = true ∧ i ≠ n)
    {it : Item} {u b k i} (hA : A it.obj it.name ≠ none → k = .one2many) (ht : it.target = some u) (hu : d.lookup u = some b)
    (e : E it.obj (canon A it.obj it.name) = some (k, i)) (eb : E b i = some (k.opp, canon A it.obj it.name)) :
    Told E V (stepView E A d V it) k it.obj (canon A it.obj it.name) i b := by
  obtain ⟨hr, hni⟩ := hreg _ _ _ _ e
  have giv : stepView E A d V it = V.give k it.obj (canon A it.obj it.name) i b →
      Told E V (stepView E A d V it) k it.obj (canon A it.obj it.name) i b := fun hs => by
    obtain ⟨C1, sub, keep⟩ := give_local C hr hni e eb
    rw [← hs] at C1 sub keep
    refine ⟨C1, sub, keep, ?_⟩
    intro F1 F2 x r y h
    rw [hs]
    exact ((give_linked C hr hni e eb F1 F2).2 x r y).2 (.inr h)
  cases ha : A it.obj it.name with
  | none =>
    rw [canon_none ha] at e
    refine giv ?_
    rw [canon_none ha]; exact stepView_ref ht hu e ha
  | some q =>
    obtain ⟨m, p⟩ := q
    have hm := canon_some ha
    have hk := hA (by rw [ha]; simp)
    subst hk
    have hs := stepView_alt (V := V) ht hu ha (hm ▸ e)
    by_cases hp : (V.one it.obj m).any p = true
    · rw [if_pos hp] at hs
      refine giv ?_
      rw [hs, hm]
      simp only [View.give, View.assign]
      cases ho : V.one it.obj m with
      | none => rw [ho] at hp; cases hp
      | some z => rw [if_neg (by simp)]
    · rw [if_neg hp] at hs
      rw [hs]
      rw [hm] at e eb ⊢
      obtain ⟨C1, sub, keep⟩ := put_local C e eb
      exact ⟨C1, sub, keep, fun F1 _ x r y h => put_linked C e eb (F1 rfl) x r y (.inr h)⟩

/-- The links after a list of statements: those before and those stated, as far as their ends are not
given other partners. -/
theorem links_local {E : Ends} {A : Alts} {d : Dict} (hreg : ∀ a n k i, E a n = some (k, i) → regular k = true ∧ i ≠ n) :
    ∀ (its : List Item) {V : View}, Consistent E V → Matching E A d its → ∀ x r y,
    (Linked (its.foldl (stepView E A d) V) x r y → Linked V x r y ∨ Said E A d its x r y) ∧
    ∀ k0 i0, E x r = some (k0, i0) →
      (k0.isMany = false → ∀ y', Linked V x r y' ∨ Said E A d its x r y' → y' = y) →
      (k0.opp.isMany = false → ∀ x', Linked V y i0 x' ∨ Said E A d its y i0 x' → x' = x) →
      Linked V x r y ∨ Said E A d its x r y → Linked (its.foldl (stepView E A d) V) x r y := by
  intro its
  induction its with
  | nil =>
    intro V _ _ x r y
    refine ⟨.inl, fun _ _ _ _ _ h => ?_⟩
    rcases h with h | ⟨_, h, _⟩ | ⟨_, h, _⟩
    · exact h
    · cases h
    · cases h
  | cons it its ih =>
    intro V C M x r y
    rw [List.foldl_cons]
    have M' : Matching E A d its := fun it' h => M it' (.tail _ h)
    by_cases hg : ∃ b, Gives E A d it it.obj (canon A it.obj it.name) b
    · obtain ⟨b, hg⟩ := hg
      obtain ⟨-, -, hs, u, ht, hu⟩ := id hg
      obtain ⟨⟨k, i⟩, e⟩ := Option.isSome_iff_exists.1 hs
      obtain ⟨hr, hni⟩ := hreg _ _ _ _ e
      obtain ⟨eb, hA⟩ := M it (.head _) _ _ _ _ _ hg e
      obtain ⟨C1, sub, keep, made⟩ := step_local (A := A) C hreg hA ht hu e eb
      generalize hn : canon A it.obj it.name = n at *
      have said1 : Said E A d (it :: its) it.obj n b := said_cons.2 (.inl hg)
      have said2 : Said E A d (it :: its) b i it.obj := said_cons.2 (.inr (.inl ⟨k, n, e, hg⟩))
      have tail : ∀ {x r y}, Said E A d its x r y → Said E A d (it :: its) x r y := fun h => said_cons.2 (.inr (.inr h))
      have up : ∀ x r y, Linked (stepView E A d V it) x r y ∨ Said E A d its x r y →
          Linked V x r y ∨ Said E A d (it :: its) x r y := by
        intro x r y h
        rcases h with h | h
        · rcases sub x r y h with h | ⟨rfl, rfl, rfl⟩ | ⟨rfl, rfl, rfl⟩
          · exact .inl h
          · exact .inr said1
          · exact .inr said2
        · exact .inr (tail h)
      have ih := ih (V := stepView E A d V it) C1 M' x r y
      refine ⟨fun h => up _ _ _ (ih.1 h), fun k0 i0 e0 U1 U2 h => ?_⟩
      refine ih.2 k0 i0 e0 (fun hk y' h' => U1 hk y' (up _ _ _ h')) (fun hk x' h' => U2 hk x' (up _ _ _ h')) ?_
      have new : (x = it.obj ∧ r = n ∧ y = b) ∨ (x = b ∧ r = i ∧ y = it.obj) →
          Linked (stepView E A d V it) x r y := by
        intro hh
        refine made ?_ ?_ x r y hh
        · intro hk z hz
          rcases hh with ⟨rfl, rfl, rfl⟩ | ⟨rfl, rfl, rfl⟩
          · rw [e] at e0; cases e0
            exact U1 hk z (.inl (.inl hz))
          · rw [eb] at e0; cases e0
            exact U2 (by rw [(opp_regular hr).2]; exact hk) z (.inl (.inl hz))
        · intro hk z hz
          rcases hh with ⟨rfl, rfl, rfl⟩ | ⟨rfl, rfl, rfl⟩
          · rw [e] at e0; cases e0
            exact U2 hk z (.inl (.inl hz))
          · rw [eb] at e0; cases e0
            exact U1 hk z (.inl (.inl hz))
      rcases h with h | h
      · refine .inl ?_
        refine keep x r y k0 i0 e0 h (fun hk => ⟨?_, ?_⟩) (fun hk => ⟨?_, ?_⟩)
        · rintro ⟨rfl, rfl⟩; exact (U1 hk b (.inr said1)).symm
        · rintro ⟨rfl, rfl⟩; exact (U1 hk it.obj (.inr said2)).symm
        · rintro ⟨rfl, rfl⟩; exact (U2 hk b (.inr said1)).symm
        · rintro ⟨rfl, rfl⟩; exact (U2 hk it.obj (.inr said2)).symm
      · rcases said_cons.1 h with ⟨rfl, rfl, -, u', h1, h2⟩ | ⟨k', i', e', rfl, rfl, -, u', h1, h2⟩ | h
        · rw [ht] at h1; cases h1; rw [hu] at h2; cases h2
          exact .inl (new (.inl ⟨rfl, hn, rfl⟩))
        · rw [ht] at h1; cases h1; rw [hu] at h2; cases h2
          rw [hn, e] at e'; cases e'
          exact .inl (new (.inr ⟨rfl, rfl, rfl⟩))
        · exact .inr h
    · have no : ∀ x r y, ¬ Gives E A d it x r y := by
        rintro x r y ⟨rfl, rfl, h⟩
        exact hg ⟨y, rfl, rfl, h⟩
      have step : stepView E A d V it = V := by
        unfold stepView
        cases ht : it.target with
        | none => rfl
        | some u =>
          dsimp only
          cases hu : d.lookup u with
          | none => rfl
          | some b =>
            dsimp only
            cases ha : A it.obj it.name with
            | none =>
              dsimp only
              cases he : E it.obj it.name with
              | none => rfl
              | some p => exact absurd ⟨rfl, canon_none ha, by rw [he]; rfl, u, ht, hu⟩ (no it.obj it.name b)
            | some q =>
              dsimp only
              cases he : E it.obj q.1 with
              | none => rfl
              | some p => exact absurd ⟨rfl, canon_some ha, by rw [he]; rfl, u, ht, hu⟩ (no it.obj q.1 b)
      have same : ∀ x r y, Said E A d (it :: its) x r y ↔ Said E A d its x r y := by
        intro x r y
        rw [said_cons]
        constructor
        · rintro (h | ⟨_, _, _, h⟩ | h)
          · exact absurd h (no _ _ _)
          · exact absurd h (no _ _ _)
          · exact h
        · exact fun h => .inr (.inr h)
      rw [step]
      have ih := ih C M' x r y
      simp only [same]
      exact ih

/-- Sound statements connect matching classes. -/
theorem Sound.matching {h : Heap} {d : Dict} {its : List Item} (S : ∀ it ∈ its, Sound h d it) :
    Matching (ends h) (alts h) d its := by
  rintro it hit a n b k i ⟨rfl, hn, -, u, ht, hu⟩ e
  cases S it hit with
  | lit => simp [Item.target] at ht
  | enum _ _ _ _ _ hr => rw [target_enum hr] at ht; cases ht
  | void => simp [Item.target] at ht
  | unknown hc hn' hp =>
    have h1 := ends_cellOf hc (cellOf_plain hn' hp)
    have h2 := alts_cellOf hc (cellOf_plain hn' hp)
    dsimp only at hn h1 h2 e
    rw [canon_none h2] at hn; subst hn
    rw [h1] at e; cases e
  | dangling _ _ hu' =>
    rw [target_hash] at ht; cases ht
    rw [hu'] at hu; cases hu
  | ref hu' e' eb' =>
    rw [target_hash] at ht; cases ht
    rw [hu'] at hu; cases hu
    dsimp only at hn e ⊢
    rw [canon_none (alts_end e')] at hn; subst hn
    rw [e'] at e; cases e
    exact ⟨eb', fun h => absurd (alts_end e') h⟩
  | way _ hc _ hf =>
    have h1 := ends_cellOf hc hf
    have h2 := alts_cellOf hc hf
    dsimp only at hn h1 h2 e
    rw [canon_none h2] at hn; subst hn
    rw [h1] at e; cases e
  | «alias» hu' ha e' eb' =>
    rw [target_hash] at ht; cases ht
    rw [hu'] at hu; cases hu
    dsimp only at hn e ⊢
    rw [canon_some ha] at hn; subst hn
    rw [e'] at e; cases e
    exact ⟨eb', fun _ => rfl⟩

end Cim
end Verif
