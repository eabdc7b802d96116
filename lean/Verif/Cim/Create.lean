import Verif.Cim.Links
/-
The first pass on a consistent object graph: it succeeds, and the new objects have default values.
-/
namespace Verif
namespace Cim
open Py Hp Xml Spec

theorem kwRef_uuid {c : Cls} (F : UuidFree c) (u : Str) {n : Str} (hn : n ∈ refNames c) :
    kwRef [(uuidN, .str u)] n = .none := by
  obtain ⟨d, hd, hm⟩ := List.mem_flatMap.1 hn
  obtain ⟨rd, hrd, rfl⟩ := List.mem_map.1 hm
  have := (F d hd rd hrd).1
  unfold kwRef
  rw [List.lookup_cons, beq_false_of_ne this]
  rfl

theorem Ident.accepts {c : Cls} (I : Ident c) (u : Str) : Accepts [(uuidN, .str u)] c := by
  intro p hp
  cases List.mem_singleton.1 hp
  obtain ⟨ds, e, rfl, he, -⟩ := I.split
  exact ⟨e, by simp, by unfold ClassDef.params; exact List.mem_append_left _ he⟩

/-- `klass(UUID=u)` on a consistent object graph. -/
theorem run_create {h : Heap} (L : Live h) (f) {c : Cls} (W : WFCls c) (I : Ident c) (u : Str) :
    ∃ h', construct (f + 4) c [(uuidN, .str u)] h = .ok h.next h' ∧ Live h' ∧ view h' = view h ∧
      (∀ n, Pub n → n ∉ refNames c → h'.dict h.next n = plainAll [(uuidN, .str u)] c n) ∧
      (∀ fd, OneWay c fd → h'.dict h.next fd = some .none) := by
  have hno : ∀ n ∈ refNames c, kwRef [(uuidN, .str u)] n = .none := fun n hn => kwRef_uuid I.free u hn
  obtain ⟨A, hkw⟩ := noRefArgs W hno
  obtain ⟨h', r', s', L', v', p', c'⟩ := run_new L f W A (I.accepts u) (hkw h)
  refine ⟨h', r', L', ?_, p', fun fd o => ?_⟩
  case refine_2 =>
    obtain ⟨rd, hf, hor⟩ := o
    obtain ⟨d, hd, hrd, -⟩ := findRef_mem hf
    rw [c' _ rd fd hf hor, hno rd.name (List.mem_flatMap.2 ⟨d, hd, List.mem_map.2 ⟨rd, hrd, rfl⟩⟩)]
  rw [v', asgAll_none W (fun _ h => h) hno]
  rfl

/-- The classes of these elements can be instantiated with an identifier. -/
def GoodIn (m : PkgMap) (L : List (Str × Str)) : Prop := ∀ p ∈ L, ∀ c, m.lookup p.1 = some c → WFCls c ∧ Ident c

/-- Effect of the first pass on a consistent object graph. -/
structure Created (m : PkgMap) (L : List (Str × Str)) (s s' : RState) : Prop extends Pass1 m L s s' where
  live : Live s'.heap
  view : view s'.heap = view s.heap
  plain : ∀ u c a, lastKnown m u L = some c → s'.d.lookup u = some a →
    (∀ n, Pub n → n ∉ refNames c → s'.heap.dict a n = plainAll [(uuidN, .str u)] c n) ∧
    (∀ fd, OneWay c fd → s'.heap.dict a fd = some .none)

theorem Created.trans {m : PkgMap} {L1 L2 : List (Str × Str)} {s s1 s2 : RState}
    (p : Created m L1 s s1) (q : Created m L2 s1 s2) : Created m L1 s s1 ∧ Created m (L1 ++ L2) s s2 := by
  refine ⟨p, { p.toPass1.trans q.toPass1 with live := q.live, view := q.view.trans p.view, plain := ?_ }⟩
  intro u c a hl ha
  rw [lastKnown_append] at hl
  cases h2 : lastKnown m u L2 with
  | some c' =>
    rw [h2] at hl; cases hl
    exact q.plain u c a h2 ha
  | none =>
    rw [h2] at hl
    rw [q.old u h2] at ha
    obtain ⟨b, h1, -, h3, -⟩ := p.new u c hl
    rw [ha] at h1; cases h1
    obtain ⟨k1, k2⟩ := p.plain u c a hl ha
    exact ⟨fun n hn hr => by rw [q.dict a n h3]; exact k1 n hn hr, fun fd o => by rw [q.dict a fd h3]; exact k2 fd o⟩

theorem Created.nil (m) {s : RState} (L : Live s.heap) : Created m [] s s :=
  { Pass1.nil m s with live := L, view := rfl, plain := fun _ _ _ h => by cases h }

/-- The first pass succeeds. -/
theorem create {g : Cfg} {m : PkgMap} {f : Nat} (hm : g.pm = some m) (hg : g.fuel = f + 4) :
    ∀ (L : List (Str × Str)) {s : RState}, GoodIn m L → Live s.heap →
    ∃ s', forEach (fun p : Str × Str => instantiate g p.1 p.2) L s = .ok ⟨⟩ s' ∧ Created m L s s' := by
  intro L
  induction L with
  | nil => intro s _ hl; exact ⟨s, rfl, Created.nil m hl⟩
  | cons p L ih =>
    intro s M hl
    obtain ⟨t, u⟩ := p
    have one : ∃ s1, instantiate g t u s = .ok ⟨⟩ s1 ∧ Created m [(t, u)] s s1 := by
      cases hc : m.lookup t with
      | none =>
        have r : instantiate g t u s = .ok ⟨⟩ { s with log := s.log ++ [.noModule t u] } := by
          unfold instantiate; simp only [hm, hc]; rfl
        refine ⟨_, r, { instantiate_pass1 hm r with live := hl, view := rfl, plain := ?_ }⟩
        intro u' c a h
        simp [lastKnown, hc] at h
      | some c =>
        obtain ⟨W, I⟩ := M (t, u) (by simp) c hc
        obtain ⟨h', r', L', v', p', c'⟩ := run_create hl f W I u
        have r : instantiate g t u s = .ok ⟨⟩ { s with heap := h', d := s.d.set u s.heap.next } := by
          unfold instantiate
          simp only [hm, hc]
          rw [pybind_eq]
          unfold liftH
          rw [hg, show construct (f + 4) c [(c!"UUID", .str u)] s.heap = _ from r']
          rfl
        refine ⟨_, r, { instantiate_pass1 hm r with live := L', view := v', plain := ?_ }⟩
        intro u' c1 a hk ha
        simp only [lastKnown, hc] at hk
        split at hk
        · rename_i e; subst e; cases hk
          have ha : (s.d.set u s.heap.next).lookup u = some a := ha
          rw [Dict.lookup_set, if_pos rfl] at ha; cases ha
          exact ⟨p', c'⟩
        · cases hk
    obtain ⟨s1, r1, C1⟩ := one
    obtain ⟨s2, r2, C2⟩ := ih (fun p hp => M p (List.mem_cons_of_mem _ hp)) C1.live
    refine ⟨s2, ?_, (C1.trans C2).2⟩
    show ((fun p : Str × Str => instantiate g p.1 p.2) (t, u) >>= fun _ =>
      forEach (fun p : Str × Str => instantiate g p.1 p.2) L) s = _
    rw [bind_of_ok r1, r2]

end Cim
end Verif
