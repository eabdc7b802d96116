import Verif.Spec.Doc
/-
Statements carried out on two sets of objects that correspond to each other.
-/
namespace Verif
namespace Props
open Cim Spec

/-- `ρ` takes the objects of the identifiers in `I` (and some others, all in `D`) to those they have in the
other model, which have the same classes. -/
structure Ren (ρ : Addr → Addr) (D : Addr → Prop) (I : Str → Prop) (X X' : Ctx) (d d' : Str → Option Addr)
    (cls cls' : Addr → Option Cls) : Prop where
  ids : ∀ u, I u → X'.cls u = X.cls u
  den : ∀ u, I u → d' u = (d u).map ρ
  dom : ∀ u b, I u → d u = some b → D b
  obj : ∀ b, D b → cls' (ρ b) = cls b
  inj : ∀ b b', D b → D b' → ρ b = ρ b' → b = b'

/-- Corresponding objects, or none. -/
def ROpt (ρ : Addr → Addr) (D : Addr → Prop) (o o' : Option Addr) : Prop := o' = o.map ρ ∧ ∀ b, o = some b → D b

/-- Corresponding lists of objects. -/
def RList (ρ : Addr → Addr) (D : Addr → Prop) (l l' : List Addr) : Prop := l' = l.map ρ ∧ ∀ b ∈ l, D b

/-- The subject and the target of a statement correspond. -/
def InI (I : Str → Prop) (st : Stmt) : Prop := I st.subj ∧ ∀ w, st.target = some w → I w

theorem foldl_rel {α β γ} {R : α → β → Prop} {f : α → γ → α} {g : β → γ → β} : ∀ (l : List γ)
    (_ : ∀ x ∈ l, ∀ a b, R a b → R (f a x) (g b x)) {a b}, R a b → R (l.foldl f a) (l.foldl g b)
  | [], _, _, _, h => h
  | x :: l, H, _, _, h => foldl_rel l (fun y hy => H y (.tail _ hy)) (H x (.head _) _ _ h)

namespace Ren
variable {ρ : Addr → Addr} {D : Addr → Prop} {I : Str → Prop} {X X' : Ctx} {d d' : Str → Option Addr}
  {cls cls' : Addr → Option Cls} (R : Ren ρ D I X X' d d' cls cls')
include R

theorem endOf {u} (hu : I u) (n : Str) : X'.endOf u n = X.endOf u n := by
  unfold Ctx.endOf; rw [R.ids u hu]

theorem real {u} (hu : I u) (n : Str) : X'.real u n = X.real u n := by
  unfold Ctx.real; rw [R.ids u hu]

theorem keeps {u} (hu : I u) (n : Str) {o o'} (ho : ROpt ρ D o o') : X'.keeps cls' u n o' = X.keeps cls u n o := by
  obtain ⟨rfl, hD⟩ := ho
  unfold Ctx.keeps
  rw [R.ids u hu]
  split
  · split
    · cases o with
      | none => rfl
      | some b => simp only [Option.map_some, Option.any_some, R.obj b (hD b rfl)]
    · cases o <;> rfl
  · cases o <;> rfl

theorem some {u b} (hu : I u) (hb : d u = .some b) : ROpt ρ D (.some b) (d' u) := by
  refine ⟨by rw [R.den u hu, hb], ?_⟩
  rintro _ ⟨⟩
  exact R.dom u b hu hb

theorem toOne {st : Stmt} (hI : InI I st) {u} (hu : I u) (n i : Str) {o o'} (ho : ROpt ρ D o o') :
    ROpt ρ D (X.toOne d cls u n i o st) (X'.toOne d' cls' u n i o' st) := by
  unfold Ctx.toOne
  cases ht : st.target with
  | none => exact ho
  | some w =>
    have hw := hI.2 w ht
    dsimp only
    rw [R.real hu, R.real hI.1, R.endOf hI.1, R.den w hw, R.den _ hI.1, R.keeps hu _ ho]
    split
    · cases hb : d w with
      | none => exact ho
      | some b =>
        dsimp only [Option.map_some]
        split
        · exact ho
        · exact ⟨rfl, by rintro _ ⟨⟩; exact R.dom w b hw hb⟩
    · split
      · cases hb : d st.subj with
        | none => exact ho
        | some b => exact ⟨rfl, by rintro _ ⟨⟩; exact R.dom _ b hI.1 hb⟩
      · exact ho

theorem mem_map {l : List Addr} (hl : ∀ b ∈ l, D b) {y} (hy : D y) : ρ y ∈ l.map ρ ↔ y ∈ l := by
  rw [List.mem_map]
  constructor
  · rintro ⟨z, hz, e⟩
    rw [← R.inj z y (hl z hz) hy e]; exact hz
  · intro h; exact ⟨y, h, rfl⟩

theorem filter_map {l : List Addr} (hl : ∀ b ∈ l, D b) {y} (hy : D y) :
    (l.map ρ).filter (· ≠ ρ y) = (l.filter (· ≠ y)).map ρ := by
  rw [List.filter_map]
  congr 1
  refine List.filter_congr fun z hz => ?_
  have : ρ z = ρ y ↔ z = y := ⟨R.inj z y (hl z hz) hy, fun h => by rw [h]⟩
  simp only [Function.comp_apply, ne_eq, this]

theorem toMany {st : Stmt} (hI : InI I st) {u} (hu : I u) (n i : Str) {l l'} (hl : RList ρ D l l') :
    RList ρ D (X.toMany d u n i l st) (X'.toMany d' u n i l' st) := by
  unfold Ctx.toMany
  cases ht : st.target with
  | none => exact hl
  | some w =>
    have hw := hI.2 w ht
    dsimp only
    have snoc : ∀ {v b}, I v → d v = .some b → RList ρ D (l ++ [b]) (l' ++ [ρ b]) := by
      intro v b hv hb
      refine ⟨by rw [hl.1, List.map_append]; rfl, fun x hx => ?_⟩
      rcases List.mem_append.1 hx with hx | hx
      · exact hl.2 x hx
      · rw [List.mem_singleton.1 hx]; exact R.dom v b hv hb
    rw [R.real hu, R.real hI.1, R.endOf hI.1, R.den w hw, R.den _ hI.1]
    split
    · cases hb : d w with
      | none => exact hl
      | some b => exact snoc hw hb
    · split
      · cases hb : d st.subj with
        | none => exact hl
        | some y =>
          dsimp only [Option.map_some]
          have : ρ y ∈ l' ↔ y ∈ l := by rw [hl.1]; exact R.mem_map hl.2 (R.dom _ y hI.1 hb)
          by_cases hy : y ∈ l
          · rw [if_pos hy, if_pos (this.2 hy)]; exact hl
          · rw [if_neg hy, if_neg (fun hh => hy (this.1 hh))]; exact snoc hI.1 hb
      · exact hl

theorem moved {st : Stmt} (hI : InI I st) {u} (n i : Str) {cur cur' : Str → Option Addr}
    (hc : ∀ w, I w → X.endOf w i = .some (.one2many, n) → ROpt ρ D (cur w) (cur' w)) {l l'} (hl : RList ρ D l l') :
    RList ρ D (X.moved d cls u n i cur l st) (X'.moved d' cls' u n i cur' l' st) := by
  unfold Ctx.moved
  cases ht : st.target with
  | none => exact hl
  | some w =>
    have hw := hI.2 w ht
    simp only [Option.bind_some]
    rw [R.den _ hI.1, R.den w hw]
    cases hy : d st.subj with
    | none => exact hl
    | some y =>
      cases hb : d w with
      | none => exact hl
      | some b =>
        simp only [Option.map_some, Option.bind_some]
        rw [R.real hI.1, R.endOf hI.1, R.endOf hI.1]
        have move : ∀ {x}, D x → ∀ (c : Prop) [Decidable c], RList ρ D (l.filter (· ≠ x) ++ if c then [x] else [])
            (l'.filter (· ≠ ρ x) ++ if c then [ρ x] else []) := by
          intro x hx c _
          refine ⟨?_, fun z hz => ?_⟩
          · rw [hl.1, R.filter_map hl.2 hx, List.map_append]
            congr 1
            split <;> rfl
          · rcases List.mem_append.1 hz with hz | hz
            · exact hl.2 z (List.mem_filter.1 hz).1
            · split at hz
              · rw [List.mem_singleton.1 hz]; exact hx
              · cases hz
        split
        · rename_i hh
          rw [R.keeps hI.1 _ (hc st.subj hI.1 hh.2)]
          split
          · exact hl
          · exact move (R.dom _ y hI.1 hy) _
        · split
          · exact move (R.dom _ b hw hb) _
          · exact hl

theorem members : ∀ (ss : List Stmt) (_ : ∀ st ∈ ss, InI I st) {u} (n i : Str) {cur cur' : Str → Option Addr}
    (_ : ∀ w, I w → X.endOf w i = .some (.one2many, n) → ROpt ρ D (cur w) (cur' w)) {l l'} (_ : RList ρ D l l'),
    RList ρ D (X.members d cls u n i cur l ss) (X'.members d' cls' u n i cur' l' ss)
  | [], _, _, _, _, _, _, _, _, _, hl => hl
  | st :: ss, hI, u, n, i, cur, cur', hc, l, l', hl => by
    unfold Ctx.members
    exact members ss (fun st h => hI st (.tail _ h)) n i
      (fun w hw he => R.toOne (hI st (.head _)) hw i n (hc w hw he)) (R.moved (hI st (.head _)) n i hc hl)

theorem pair {st : Stmt} (hI : InI I st) {cur cur' : Str → Str → Option Addr}
    (hc : ∀ u n i, I u → X.endOf u n = .some (.one2one, i) → ROpt ρ D (cur u n) (cur' u n)) :
    ∀ u n i, I u → X.endOf u n = .some (.one2one, i) → ROpt ρ D (X.pair d cur st u n) (X'.pair d' cur' st u n) := by
  intro u n i hu hi
  have hcu := hc u n i hu hi
  unfold Ctx.pair
  rw [R.endOf hI.1]
  split
  · rename_i j hj
    cases ht : st.target with
    | none => exact hcu
    | some w =>
      have hw := hI.2 w ht
      simp only [Option.bind_some]
      rw [R.den _ hI.1, R.den w hw]
      cases hy : d st.subj with
      | none => exact hcu
      | some y =>
        cases hb : d w with
        | none => exact hcu
        | some b =>
          simp only [Option.map_some, Option.bind_some]
          have h0 := hc st.subj st.attr j hI.1 hj
          have e0 : (cur' st.subj st.attr).isSome = (cur st.subj st.attr).isSome := by
            rw [h0.1]; cases cur st.subj st.attr <;> rfl
          have e1 : cur' u n = .some (ρ b) ↔ cur u n = .some b := by
            rw [hcu.1]
            cases hx : cur u n with
            | none => simp
            | some x =>
              simp only [Option.map_some, Option.some.injEq]
              exact ⟨R.inj x b (hcu.2 x hx) (R.dom w b hw hb), fun h => by rw [h]⟩
          rw [e0, R.endOf hu]
          simp only [e1]
          split
          · exact hcu
          · split
            · exact ⟨rfl, by rintro _ ⟨⟩; exact R.dom w b hw hb⟩
            · split
              · exact ⟨rfl, by rintro _ ⟨⟩; exact R.dom _ y hI.1 hy⟩
              · split
                · exact ⟨rfl, nofun⟩
                · exact hcu
  · exact hcu

end Ren
end Props
end Verif
