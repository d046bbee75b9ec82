import Verif.Lemmas.Document

/-! Helper lemmas: every class of library and system files is read as what the file says. -/

namespace Verif
open Doc

theorem readsAs_connection : ReadsAs readConnection id SaysConnection := by
  refine readsAs_map fun l hl b => ?_
  have T := fun n s => needs_iff readsAs_text hl (n := n) (b := s)
  constructor
  · rintro ⟨a, ha, rfl⟩
    simp only [bind_ok_iff, Except.ok.injEq] at ha
    obtain ⟨u, h0, x1, h1, x2, h2, x3, h3, x4, h4, rfl⟩ := ha
    exact ⟨(forbidExtra_iff hl.entries).1 h0, (T _ _).1 ⟨_, h1, rfl⟩, (T _ _).1 ⟨_, h2, rfl⟩, (T _ _).1 ⟨_, h3, rfl⟩, (T _ _).1 ⟨_, h4, rfl⟩⟩
  · rintro ⟨h0, h1, h2, h3, h4⟩
    obtain ⟨x1, g1, e1⟩ := (T _ _).2 h1
    obtain ⟨x2, g2, e2⟩ := (T _ _).2 h2
    obtain ⟨x3, g3, e3⟩ := (T _ _).2 h3
    obtain ⟨x4, g4, e4⟩ := (T _ _).2 h4
    cases b
    dsimp only [id_eq] at *
    subst e1 e2 e3 e4
    exact ⟨_, by simp only [(forbidExtra_iff hl.entries (u := ())).2 h0, g1, g2, g3, g4, ok_bind], rfl⟩

theorem readsAs_param (L : Lenient) : ReadsAs (readParam L) SetParam.values (SaysParam L) := by
  refine readsAs_map fun l hl b => ?_
  have T := fun n s => needs_iff readsAs_text hl (n := n) (b := s)
  have B := fun n s => may_iff (readsAs_bool L) hl (n := n) (b := s) (dflt := false)
  have V := fun n s => needs_iff (readsAs_value L) hl (n := n) (b := s)
  have O := fun n s => may_iff (readsAs_orNull readsAs_text) hl (n := n) (b := s) (dflt := none)
  simp only [Option.map_id_fun, id_eq] at T B V O
  constructor
  · rintro ⟨a, ha, rfl⟩
    simp only [bind_ok_iff, Except.ok.injEq] at ha
    obtain ⟨u, h0, x1, h1, x2, h2, x3, h3, x4, h4, x5, h5, rfl⟩ := ha
    exact ⟨(forbidExtra_iff hl.entries).1 h0, (T _ _).1 ⟨_, h1, rfl⟩, (B _ _).1 ⟨_, h2, rfl⟩, (B _ _).1 ⟨_, h3, rfl⟩, (V _ _).1 ⟨_, h4, rfl⟩,
      (O _ _).1 ⟨_, h5, rfl⟩⟩
  · rintro ⟨h0, h1, h2, h3, h4, h5⟩
    obtain ⟨x1, g1, e1⟩ := (T _ _).2 h1
    obtain ⟨x2, g2, e2⟩ := (B _ _).2 h2
    obtain ⟨x3, g3, e3⟩ := (B _ _).2 h3
    obtain ⟨x4, g4, e4⟩ := (V _ _).2 h4
    obtain ⟨x5, g5, e5⟩ := (O _ _).2 h5
    cases b
    dsimp only at *
    subst e1 e2 e3 e4 e5
    exact ⟨_, by simp only [(forbidExtra_iff hl.entries (u := ())).2 h0, g1, g2, g3, g4, g5, ok_bind]; rfl, rfl⟩

/-- a list that may be left empty -/
theorem readsAs_listOrNull {α β} {f : Doc → R α} {v : α → β} {P : β → Doc → Prop} (h : ReadsAs f v P) :
    ReadsAs (orNull (listOf f)) (fun o => (o.getD []).map v) (fun b x => (x = .null ∧ b = []) ∨ SaysList P b x) := by
  intro d hd b
  have h1 := readsAs_orNull (readsAs_list h) d hd
  unfold SaysOption at h1
  constructor
  · rintro ⟨a, ha, rfl⟩
    obtain ⟨e1, e2⟩ | ⟨b, e1, _, hp⟩ := (h1 _).1 ⟨a, ha, rfl⟩
    · cases a with
      | none => exact .inl ⟨e1, rfl⟩
      | some a => cases e2
    · cases a with
      | none => cases e1
      | some a => cases e1; exact .inr hp
  · rintro (⟨rfl, rfl⟩ | hp)
    · exact ⟨none, rfl, rfl⟩
    · have hn : d ≠ .null := by
        obtain ⟨l, rfl, _⟩ := hp
        simp
      obtain ⟨a, ha, e⟩ := (h1 (some b)).2 (.inr ⟨b, rfl, hn, hp⟩)
      cases a with
      | none => cases e
      | some a =>
        cases e
        exact ⟨_, ha, rfl⟩

theorem readsAs_component (L : Lenient) : ReadsAs (readComponent L) SetComponent.values (SaysComponent L) := by
  refine readsAs_map fun l hl b => ?_
  have T := fun n s => needs_iff readsAs_text hl (n := n) (b := s)
  have O := fun n s => may_iff (readsAs_orNull readsAs_text) hl (n := n) (b := s) (dflt := none)
  have P := fun n s => may_iff (readsAs_listOrNull (readsAs_param L)) hl (n := n) (b := s) (dflt := [])
  simp only [Option.map_id_fun, id_eq] at T O
  constructor
  · rintro ⟨a, ha, rfl⟩
    simp only [bind_ok_iff, Except.ok.injEq] at ha
    obtain ⟨u, h0, x1, h1, x2, h2, x3, h3, x4, h4, rfl⟩ := ha
    refine ⟨(forbidExtra_iff hl.entries).1 h0, (T _ _).1 ⟨_, h1, rfl⟩, (T _ _).1 ⟨_, h2, rfl⟩, (O _ _).1 ⟨_, h3, rfl⟩,
      (P _ _).1 ⟨_, h4, ?_⟩⟩
    cases x4 <;> rfl
  · rintro ⟨h0, h1, h2, h3, h4⟩
    obtain ⟨x1, g1, e1⟩ := (T _ _).2 h1
    obtain ⟨x2, g2, e2⟩ := (T _ _).2 h2
    obtain ⟨x3, g3, e3⟩ := (O _ _).2 h3
    obtain ⟨x4, g4, e4⟩ := (P _ _).2 h4
    cases b
    dsimp only at *
    subst e1 e2 e3 e4
    exact ⟨_, by simp only [(forbidExtra_iff hl.entries (u := ())).2 h0, g1, g2, g3, g4, ok_bind]; rfl, by cases x4 <;> rfl⟩

theorem readsAs_system (L : Lenient) : ReadsAs (readSystem L) SetSystem.values (SaysSystem L) := by
  refine readsAs_map fun l hl b => ?_
  have O := fun n => checked_iff (readsAs_orNull readsAs_text) hl (n := n)
  have C := fun n s => may_iff (readsAs_list (readsAs_component L)) hl (n := n) (b := s) (dflt := [])
  have K := fun n s => may_iff (readsAs_list readsAs_connection) hl (n := n) (b := s) (dflt := [])
  constructor
  · rintro ⟨a, ha, rfl⟩
    simp only [bind_ok_iff, Except.ok.injEq] at ha
    obtain ⟨u, h0, x1, h1, x2, h2, x3, h3, x4, h4, rfl⟩ := ha
    refine ⟨(forbidExtra_iff hl.entries).1 h0, (O _).1 ⟨_, h1⟩, (C _ _).1 ⟨_, h2, ?_⟩, (C _ _).1 ⟨_, h3, ?_⟩, (K _ _).1 ⟨_, h4, ?_⟩⟩
    · cases x2 <;> rfl
    · cases x3 <;> rfl
    · cases x4 with
      | none => rfl
      | some x => exact List.map_id x
  · rintro ⟨h0, h1, h2, h3, h4⟩
    obtain ⟨x1, g1⟩ := (O _).2 h1
    obtain ⟨x2, g2, e2⟩ := (C _ _).2 h2
    obtain ⟨x3, g3, e3⟩ := (C _ _).2 h3
    obtain ⟨x4, g4, e4⟩ := (K _ _).2 h4
    cases b
    dsimp only at *
    subst e2 e3 e4
    refine ⟨_, by simp only [(forbidExtra_iff hl.entries (u := ())).2 h0, g1, g2, g3, g4, ok_bind]; rfl, ?_⟩
    cases x2 <;> cases x3 <;> cases x4 <;> simp [SetSystem.values]

theorem readsAs_parameter (L : Lenient) : ReadsAs (readParameter L) id (SaysParameter L) := by
  refine readsAs_map fun l hl b => ?_
  have T := fun n s => needs_iff readsAs_text hl (n := n) (b := s)
  have B := fun n s => may_iff (readsAs_bool L) hl (n := n) (b := s) (dflt := false)
  simp only [Option.map_id_fun, id_eq] at T B
  constructor
  · rintro ⟨a, ha, rfl⟩
    simp only [bind_ok_iff, Except.ok.injEq] at ha
    obtain ⟨u, h0, x1, h1, x2, h2, x3, h3, rfl⟩ := ha
    exact ⟨(forbidExtra_iff hl.entries).1 h0, (T _ _).1 ⟨_, h1, rfl⟩, (B _ _).1 ⟨_, h2, rfl⟩, (B _ _).1 ⟨_, h3, rfl⟩⟩
  · rintro ⟨h0, h1, h2, h3⟩
    obtain ⟨x1, g1, e1⟩ := (T _ _).2 h1
    obtain ⟨x2, g2, e2⟩ := (B _ _).2 h2
    obtain ⟨x3, g3, e3⟩ := (B _ _).2 h3
    cases b
    dsimp only at *
    subst e1 e2 e3
    exact ⟨_, by simp only [(forbidExtra_iff hl.entries (u := ())).2 h0, g1, g2, g3, ok_bind], rfl⟩

theorem readsAs_variable (L : Lenient) (num : Num → String) : ReadsAs (readVariable L num) id (SaysVariable L num) := by
  refine readsAs_map fun l hl b => ?_
  have T := fun n s => needs_iff (readsAs_textOrNumber num) hl (n := n) (b := s)
  have B := fun n s => may_iff (readsAs_bool L) hl (n := n) (b := s) (dflt := true)
  have O := fun n s => may_iff (readsAs_orNull (readsAs_textOrNumber num)) hl (n := n) (b := s) (dflt := none)
  have D := fun n s => may_iff (readsAs_textOrNumber num) hl (n := n) (b := s) (dflt := "continuous")
  simp only [Option.map_id_fun, id_eq] at T B O D
  constructor
  · rintro ⟨a, ha, rfl⟩
    simp only [bind_ok_iff, Except.ok.injEq] at ha
    obtain ⟨u, h0, x1, h1, x2, h2, x3, h3, x4, h4, x5, h5, x6, h6, rfl⟩ := ha
    exact ⟨(forbidExtra_iff hl.entries).1 h0, (T _ _).1 ⟨_, h1, rfl⟩, (B _ _).1 ⟨_, h2, rfl⟩, (B _ _).1 ⟨_, h3, rfl⟩,
      (O _ _).1 ⟨_, h4, rfl⟩, (O _ _).1 ⟨_, h5, rfl⟩, (D _ _).1 ⟨_, h6, rfl⟩⟩
  · rintro ⟨h0, h1, h2, h3, h4, h5, h6⟩
    obtain ⟨x1, g1, e1⟩ := (T _ _).2 h1
    obtain ⟨x2, g2, e2⟩ := (B _ _).2 h2
    obtain ⟨x3, g3, e3⟩ := (B _ _).2 h3
    obtain ⟨x4, g4, e4⟩ := (O _ _).2 h4
    obtain ⟨x5, g5, e5⟩ := (O _ _).2 h5
    obtain ⟨x6, g6, e6⟩ := (D _ _).2 h6
    cases b
    dsimp only at *
    subst e1 e2 e3 e4 e5 e6
    exact ⟨_, by simp only [(forbidExtra_iff hl.entries (u := ())).2 h0, g1, g2, g3, g4, g5, g6, ok_bind], rfl⟩

theorem readsAs_constraint : ReadsAs readConstraint id SaysConstraint := by
  refine readsAs_map fun l hl b => ?_
  have T := fun n s => needs_iff readsAs_text hl (n := n) (b := s)
  have O := fun n s => may_iff (readsAs_orNull readsAs_text) hl (n := n) (b := s) (dflt := none)
  simp only [Option.map_id_fun, id_eq] at T O
  constructor
  · rintro ⟨a, ha, rfl⟩
    simp only [bind_ok_iff, Except.ok.injEq] at ha
    obtain ⟨u, h0, x1, h1, x2, h2, x3, h3, x4, h4, rfl⟩ := ha
    exact ⟨(forbidExtra_iff hl.entries).1 h0, (T _ _).1 ⟨_, h1, rfl⟩, (T _ _).1 ⟨_, h2, rfl⟩, (O _ _).1 ⟨_, h3, rfl⟩, (O _ _).1 ⟨_, h4, rfl⟩⟩
  · rintro ⟨h0, h1, h2, h3, h4⟩
    obtain ⟨x1, g1, e1⟩ := (T _ _).2 h1
    obtain ⟨x2, g2, e2⟩ := (T _ _).2 h2
    obtain ⟨x3, g3, e3⟩ := (O _ _).2 h3
    obtain ⟨x4, g4, e4⟩ := (O _ _).2 h4
    cases b
    dsimp only at *
    subst e1 e2 e3 e4
    exact ⟨_, by simp only [(forbidExtra_iff hl.entries (u := ())).2 h0, g1, g2, g3, g4, ok_bind], rfl⟩

theorem readsAs_field : ReadsAs readField id SaysField := by
  refine readsAs_map fun l hl b => ?_
  have T := fun n s => needs_iff readsAs_text hl (n := n) (b := s)
  simp only [id_eq] at T
  constructor
  · rintro ⟨a, ha, rfl⟩
    simp only [bind_ok_iff] at ha
    obtain ⟨u, h0, h1⟩ := ha
    exact ⟨(forbidExtra_iff hl.entries).1 h0, (T _ _).1 ⟨_, h1, rfl⟩⟩
  · rintro ⟨h0, h1⟩
    obtain ⟨x1, g1, e1⟩ := (T _ _).2 h1
    subst e1
    exact ⟨_, by simp only [(forbidExtra_iff hl.entries (u := ())).2 h0, g1, ok_bind], rfl⟩

theorem readsAs_portType : ReadsAs readPortType id SaysPortType := by
  refine readsAs_map fun l hl b => ?_
  have T := fun n s => needs_iff readsAs_text hl (n := n) (b := s)
  have F := fun n s => may_iff (readsAs_list readsAs_field) hl (n := n) (b := s) (dflt := [])
  have O := fun n => checked_iff (readsAs_orNull readsAs_text) hl (n := n)
  simp only [Option.map_id_fun, List.map_id_fun, id_eq] at T F
  constructor
  · rintro ⟨a, ha, rfl⟩
    simp only [bind_ok_iff, Except.ok.injEq] at ha
    obtain ⟨u, h0, x1, h1, x2, h2, x3, h3, rfl⟩ := ha
    exact ⟨(forbidExtra_iff hl.entries).1 h0, (T _ _).1 ⟨_, h1, rfl⟩, (F _ _).1 ⟨_, h2, rfl⟩, (O _).1 ⟨_, h3⟩⟩
  · rintro ⟨h0, h1, h2, h3⟩
    obtain ⟨x1, g1, e1⟩ := (T _ _).2 h1
    obtain ⟨x2, g2, e2⟩ := (F _ _).2 h2
    obtain ⟨x3, g3⟩ := (O _).2 h3
    cases b
    dsimp only at *
    subst e1 e2
    exact ⟨_, by simp only [(forbidExtra_iff hl.entries (u := ())).2 h0, g1, g2, g3, ok_bind], rfl⟩

theorem readsAs_modelPort : ReadsAs readModelPort id SaysModelPort := by
  refine readsAs_map fun l hl b => ?_
  have T := fun n s => needs_iff readsAs_text hl (n := n) (b := s)
  simp only [id_eq] at T
  constructor
  · rintro ⟨a, ha, rfl⟩
    simp only [bind_ok_iff, Except.ok.injEq] at ha
    obtain ⟨u, h0, x1, h1, x2, h2, rfl⟩ := ha
    exact ⟨(forbidExtra_iff hl.entries).1 h0, (T _ _).1 ⟨_, h1, rfl⟩, (T _ _).1 ⟨_, h2, rfl⟩⟩
  · rintro ⟨h0, h1, h2⟩
    obtain ⟨x1, g1, e1⟩ := (T _ _).2 h1
    obtain ⟨x2, g2, e2⟩ := (T _ _).2 h2
    cases b
    dsimp only at *
    subst e1 e2
    exact ⟨_, by simp only [(forbidExtra_iff hl.entries (u := ())).2 h0, g1, g2, ok_bind], rfl⟩

theorem readsAs_fieldDefinition : ReadsAs readFieldDefinition id SaysFieldDefinition := by
  refine readsAs_map fun l hl b => ?_
  have T := fun n s => needs_iff readsAs_text hl (n := n) (b := s)
  simp only [id_eq] at T
  constructor
  · rintro ⟨a, ha, rfl⟩
    simp only [bind_ok_iff, Except.ok.injEq] at ha
    obtain ⟨u, h0, x1, h1, x2, h2, x3, h3, rfl⟩ := ha
    exact ⟨(forbidExtra_iff hl.entries).1 h0, (T _ _).1 ⟨_, h1, rfl⟩, (T _ _).1 ⟨_, h2, rfl⟩, (T _ _).1 ⟨_, h3, rfl⟩⟩
  · rintro ⟨h0, h1, h2, h3⟩
    obtain ⟨x1, g1, e1⟩ := (T _ _).2 h1
    obtain ⟨x2, g2, e2⟩ := (T _ _).2 h2
    obtain ⟨x3, g3, e3⟩ := (T _ _).2 h3
    cases b
    dsimp only at *
    subst e1 e2 e3
    exact ⟨_, by simp only [(forbidExtra_iff hl.entries (u := ())).2 h0, g1, g2, g3, ok_bind], rfl⟩

theorem readsAs_model (L : Lenient) (num : Num → String) : ReadsAs (readModel L num) id (SaysModel L num) := by
  refine readsAs_map fun l hl b => ?_
  have T := fun n s => needs_iff readsAs_text hl (n := n) (b := s)
  have P := fun n s => may_iff (readsAs_list (readsAs_parameter L)) hl (n := n) (b := s) (dflt := [])
  have V := fun n s => may_iff (readsAs_list (readsAs_variable L num)) hl (n := n) (b := s) (dflt := [])
  have Q := fun n s => may_iff (readsAs_list readsAs_modelPort) hl (n := n) (b := s) (dflt := [])
  have D := fun n s => may_iff (readsAs_list readsAs_fieldDefinition) hl (n := n) (b := s) (dflt := [])
  have C := fun n s => may_iff (readsAs_list readsAs_constraint) hl (n := n) (b := s) (dflt := [])
  have O := fun n s => may_iff (readsAs_orNull readsAs_text) hl (n := n) (b := s) (dflt := none)
  have X := fun n => checked_iff (readsAs_orNull readsAs_text) hl (n := n)
  simp only [Option.map_id_fun, List.map_id_fun, id_eq] at T P V Q D C O
  constructor
  · rintro ⟨a, ha, rfl⟩
    simp only [bind_ok_iff, Except.ok.injEq] at ha
    obtain ⟨u, h0, x1, h1, x2, h2, x3, h3, x4, h4, x5, h5, x6, h6, x7, h7, x8, h8, x9, h9, rfl⟩ := ha
    exact ⟨(forbidExtra_iff hl.entries).1 h0, (T _ _).1 ⟨_, h1, rfl⟩, (P _ _).1 ⟨_, h2, rfl⟩, (V _ _).1 ⟨_, h3, rfl⟩, (Q _ _).1 ⟨_, h4, rfl⟩,
      (D _ _).1 ⟨_, h5, rfl⟩, (C _ _).1 ⟨_, h6, rfl⟩, (C _ _).1 ⟨_, h7, rfl⟩, (O _ _).1 ⟨_, h8, rfl⟩, (X _).1 ⟨_, h9⟩⟩
  · rintro ⟨h0, h1, h2, h3, h4, h5, h6, h7, h8, h9⟩
    obtain ⟨x1, g1, e1⟩ := (T _ _).2 h1
    obtain ⟨x2, g2, e2⟩ := (P _ _).2 h2
    obtain ⟨x3, g3, e3⟩ := (V _ _).2 h3
    obtain ⟨x4, g4, e4⟩ := (Q _ _).2 h4
    obtain ⟨x5, g5, e5⟩ := (D _ _).2 h5
    obtain ⟨x6, g6, e6⟩ := (C _ _).2 h6
    obtain ⟨x7, g7, e7⟩ := (C _ _).2 h7
    obtain ⟨x8, g8, e8⟩ := (O _ _).2 h8
    obtain ⟨x9, g9⟩ := (X _).2 h9
    cases b
    dsimp only at *
    subst e1 e2 e3 e4 e5 e6 e7 e8
    exact ⟨_, by simp only [(forbidExtra_iff hl.entries (u := ())).2 h0, g1, g2, g3, g4, g5, g6, g7, g8, g9, ok_bind], rfl⟩

theorem readsAs_library (L : Lenient) (num : Num → String) : ReadsAs (readLibrary L num) id (SaysLibrary L num) := by
  refine readsAs_map fun l hl b => ?_
  have T := fun n s => needs_iff readsAs_text hl (n := n) (b := s)
  have D := fun n s => may_iff (readsAs_list readsAs_text) hl (n := n) (b := s) (dflt := [])
  have P := fun n s => may_iff (readsAs_list readsAs_portType) hl (n := n) (b := s) (dflt := [])
  have M := fun n s => may_iff (readsAs_list (readsAs_model L num)) hl (n := n) (b := s) (dflt := [])
  have X := fun n => checked_iff (readsAs_orNull readsAs_text) hl (n := n)
  simp only [Option.map_id_fun, List.map_id_fun, id_eq] at T D P M
  constructor
  · rintro ⟨a, ha, rfl⟩
    simp only [bind_ok_iff, Except.ok.injEq] at ha
    obtain ⟨u, h0, x1, h1, x2, h2, x3, h3, x4, h4, x5, h5, rfl⟩ := ha
    exact ⟨(forbidExtra_iff hl.entries).1 h0, (T _ _).1 ⟨_, h1, rfl⟩, (D _ _).1 ⟨_, h2, rfl⟩, (P _ _).1 ⟨_, h3, rfl⟩, (M _ _).1 ⟨_, h4, rfl⟩,
      (X _).1 ⟨_, h5⟩⟩
  · rintro ⟨h0, h1, h2, h3, h4, h5⟩
    obtain ⟨x1, g1, e1⟩ := (T _ _).2 h1
    obtain ⟨x2, g2, e2⟩ := (D _ _).2 h2
    obtain ⟨x3, g3, e3⟩ := (P _ _).2 h3
    obtain ⟨x4, g4, e4⟩ := (M _ _).2 h4
    obtain ⟨x5, g5⟩ := (X _).2 h5
    cases b
    dsimp only at *
    subst e1 e2 e3 e4
    exact ⟨_, by simp only [(forbidExtra_iff hl.entries (u := ())).2 h0, g1, g2, g3, g4, g5, ok_bind], rfl⟩

end Verif
