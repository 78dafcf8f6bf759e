
/-- What is read of a color: 256 is none, and neither is a color under another name. -/
example : (∃ v, cClubColors.ser v = .map [("blue_flag", .bool true), ("blue_color", .int 255),
      ("orange_flag", .bool false), ("orange_color", .int 0)]) ∧
    (¬∃ v, cClubColors.ser v = .map [("blue_flag", .bool true), ("blue_color", .int 256),
      ("orange_flag", .bool false), ("orange_color", .int 0)]) ∧
    ¬∃ v, cClubColors.ser v = .map [("blue_flag", .bool true), ("blue", .int 255),
      ("orange_flag", .bool false), ("orange_color", .int 0)] := by
  refine ⟨⟨⟨true, 255, false, 0⟩, rfl⟩, ?_, ?_⟩
  · rintro ⟨v, h⟩
    have h := (clubColors_fits _).2 ⟨v, h⟩
    cases h with | struct h =>
    cases h with | cons _ h =>
    cases h with | cons h _ =>
    cases h with | unsigned h => exact absurd h (by decide)
  · rintro ⟨v, h⟩
    rw [clubColors_fields v, SVal.map.injEq, List.cons.injEq, List.cons.injEq] at h
    exact absurd (Prod.mk.inj h.2.1).1 (by decide)

/-- The frames of a parsed replay, with attributes, follow the schema. -/
example : ∃ r fs, parseWith .always .always Env.default64 demo = .ok r ∧ r.networkFrames = some ⟨fs⟩ ∧
    fs ≠ [] ∧ Has (.list frameShape) ((cList cFrame).ser fs) ∧ Has replayShape (serReplay r) := by
  obtain ⟨r, h, hn, _⟩ := demo_ok
  exact ⟨r, demoFrames, h, hn, by simp [demoFrames], (frames_schema _).1 ⟨_, rfl⟩, (replay_schema _).1 ⟨_, rfl⟩⟩

end Boxcars.Props
