import Verif.Proofs.JsonDepth
import Verif.Props.Csv

/-
C85–C87: the text of the JSON that the programs pass to each other.
-/

namespace Rtcg

open Spec JsonText

/-! ### C85 -/

/-- C85: what is written for a value is a JSON text (RFC 8259) for that value, and a new line. -/
theorem C85_written_is_json (j : Json) (s : Str) (hn : NumbersOK j) (h : Json.write j = .ok s) :
    ∃ t, s = t ++ ['\n'] ∧ JsonText j t := by
  obtain ⟨_, rfl⟩ := write_iff.1 h
  exact ⟨_, rfl, print_text 0 j hn⟩

/-- C85: reading what was written gives the value that was written, whatever follows it. -/
theorem C85_read_back (j : Json) (s rest : Str) (hn : NumbersOK j) (h : Json.write j = .ok s) : Json.parse (s ++ rest) = .ok j :=
  parse_write hn h rest

/-- C85: a value is refused, and nothing is written, exactly when its arrays and objects are nested more than 10000 deep. -/
theorem C85_refused (j : Json) : (Nested 10000 j → ∃ s, Json.write j = .ok s) ∧ (¬ Nested 10000 j → Json.write j = throwErr .jsonDepth) := by
  constructor
  · intro h
    exact ⟨_, write_iff.2 ⟨h, rfl⟩⟩
  · intro h
    have h' : ¬ Json.depth j ≤ Json.maxDepth := fun h' => h ((nested_iff _ _).2 h')
    unfold Json.write
    rw [if_neg h']

/-- C85: the numbers in what the two programs write are numbers, so the above holds for all they write, and what rtcg-make-stms writes is
never refused. -/
theorem C85_programs : (∀ file j, readTracesProgram file = .ok j → NumbersOK j) ∧
    ∀ input j, makeStmsProgram input = .ok j → NumbersOK j ∧ ∃ s, Json.write j = .ok s := by
  constructor
  · intro file j h
    cases hr : Forbidden.read file with
    | none => unfold readTracesProgram at h; rw [hr] at h; cases h
    | some r =>
      cases r with
      | error e => unfold readTracesProgram at h; rw [hr] at h; cases h
      | ok traces =>
        obtain ⟨j', h', hn, _⟩ := readTraces_json hr
        rw [h] at h'; cases h'
        exact hn
  · intro input j h
    obtain ⟨hd, hn⟩ := good_makeStms h
    exact ⟨hn, (C85_refused j).1 ((nested_iff _ _).2 (hd.trans (by decide)))⟩

/-- A text, as an example: strings with characters that need escapes, nested arrays, an empty object, a number. -/
example : ∃ s, Json.write (.obj [(c!"a\"\n<é", .arr [.num c!"-1.5e3", .obj [], .str c!"\\"])]) = .ok s ∧
    NumbersOK (.obj [(c!"a\"\n<é", .arr [.num c!"-1.5e3", .obj [], .str c!"\\"])]) := by
  refine ⟨_, rfl, ?_⟩
  simp only [NumbersOK, NumbersOKFields, NumbersOKElems, and_true]
  exact ⟨['-'], ['1'], ['.', '5'], ['e', '3'], rfl, .inr rfl, .inr ⟨⟨by decide, by decide⟩, by decide⟩,
    .inr ⟨['5'], rfl, by decide, by decide⟩, .inr ⟨'e', [], ['3'], rfl, .inl rfl, .inl rfl, by decide, by decide⟩⟩

/-! ### C86 -/

/-- C86, partly: a text is read as a value other than a number exactly if it starts, after white space, with a JSON text for it that is not
nested too deep.  The property asks that nothing but white space follows, and sets no limit. -/
theorem C86_accepts_partial (s : Str) (j : Json) (hj : ∀ n, j ≠ .num n) : Json.parse s = .ok j ↔
    ∃ w t r, s = w ++ (t ++ r) ∧ Blanks w ∧ JsonText j t ∧ Nested 10000 j := by
  constructor
  · exact parse_sound
  · rintro ⟨w, t, r, rfl, hw, ht, hd⟩
    exact parse_complete hw ht hd (fun ⟨n, e⟩ => absurd e (hj n))

/-- C86: so every JSON text not nested too deep, with white space around it, is read as what it stands for. -/
theorem C86_json_accepted (j : Json) (w t w' : Str) (hw : Blanks w) (ht : JsonText j t) (hw' : Blanks w') (hd : Nested 10000 j) :
    Json.parse (w ++ (t ++ w')) = .ok j := by
  refine parse_complete hw ht hd ?_
  rintro _ c q rfl
  have := hw' c (by simp)
  simp only [List.mem_cons, List.not_mem_nil, or_false] at this
  rcases this with rfl | rfl | rfl | rfl <;> decide

/-- C86: a text stands for at most one value. -/
theorem C86_unambiguous (j j' : Json) (t : Str) (h : JsonText j t) (h' : JsonText j' t) (hd : Nested 10000 j) (hd' : Nested 10000 j') :
    j = j' := by
  have hb : Blanks [] := fun _ h => by simp at h
  have e := C86_json_accepted j [] t [] hb h hb hd
  rw [C86_json_accepted j' [] t [] hb h' hb hd'] at e
  exact (Except.ok.inj e).symm

/-- C86: the error is "end of file" for a text of nothing but white space, and only for that. -/
theorem C86_empty (s : Str) : Json.parse s = throwErr .eof ↔ Blanks s := parse_eof

/-- C86 is false as it stands: what follows the first value is not looked at. -/
theorem C86_false : Json.parse c!"{} nonsense" = .ok (.obj []) ∧ ¬ ∃ (j : Json) (w t w' : Str), c!"{} nonsense" = w ++ (t ++ w') ∧ Blanks w ∧
    JsonText j t ∧ Blanks w' ∧ Nested 10000 j := by
  refine ⟨rfl, ?_⟩
  rintro ⟨j, w, t, w', e, hw, ht, hw', hd⟩
  have hp := C86_json_accepted j w t w' hw ht hw' hd
  rw [← e] at hp
  have hj : j = .obj [] := (Except.ok.inj (show Except.ok (.obj []) = Except.ok j from hp)).symm
  subst hj
  have hlast : (w ++ (t ++ w')).getLast? = some 'e' := by rw [← e]; rfl
  cases ht with
  | objNil hv =>
    rename_i v
    rcases List.eq_nil_or_concat w' with rfl | ⟨l, c, rfl⟩
    · simp only [List.append_nil] at hlast
      rw [List.getLast?_append] at hlast
      rw [show ('{' :: (v ++ ['}'])) = ('{' :: v) ++ ['}'] by simp, List.getLast?_append] at hlast
      simp at hlast
    · rw [← List.append_assoc, List.concat_eq_append, ← List.append_assoc, List.getLast?_append] at hlast
      simp only [List.getLast?_singleton, Option.some_or, Option.some.injEq] at hlast
      subst hlast
      exact absurd (hw' 'e' (by simp)) (by decide)
  | obj h => cases h

/-! ### C87 -/

/-- C87, partly: what rtcg-read-traces makes of a good traces file can be written exactly if each trace has at most 4996 events before the
forbidden one.  The property asks for all traces. -/
theorem C87_written_iff_partial (file : Str) (traces : List Forbidden) (h : Forbidden.read file = some (.ok traces)) :
    ∃ j, readTracesProgram file = .ok j ∧ ((∃ s, Json.write j = .ok s) ↔ ∀ f ∈ traces, f.pre.length ≤ 4996) := by
  obtain ⟨j, hj, _, hd⟩ := readTraces_json h
  refine ⟨j, hj, ?_⟩
  have hw : (∃ s, Json.write j = .ok s) ↔ Json.depth j ≤ 9999 + 1 := by
    constructor
    · rintro ⟨s, hs⟩
      exact (nested_iff _ _).1 (write_iff.1 hs).1
    · intro h
      exact (C85_refused j).1 ((nested_iff _ _).2 h)
  rw [hw, hd 9999]
  constructor
  · intro h f hf; have := h f hf; omega
  · intro h f hf; have := h f hf; omega

/-- C87 is false as it stands: a good traces file with one trace of 4998 events cannot be written. -/
theorem C87_false : ∃ file traces j, Forbidden.read file = some (.ok traces) ∧ traces.length = 1 ∧ (∀ f ∈ traces, f.pre.length = 4997) ∧
    readTracesProgram file = .ok j ∧ Json.write j = throwErr .jsonDepth := by
  let e : Event := ⟨⟨c!"a", .in_⟩, .int 1⟩
  let f : Forbidden := ⟨c!"t", List.replicate 4997 e, e⟩
  have hread := C12_canonical_writer [f] (by
    intro t ht
    rw [List.mem_singleton] at ht
    subst ht
    refine ⟨by decide, noOuterSpace_of_forall (by decide), by decide, by decide, ?_⟩
    intro x hx
    have : x = e := by
      rcases List.mem_append.1 hx with h | h
      · exact List.eq_of_mem_replicate h
      · exact List.mem_singleton.1 h
    subst this
    exact ⟨⟨⟨⟨by simp [e], noOuterSpace_of_forall (by decide), by decide⟩, Or.inl rfl⟩, Or.inr trivial⟩, by decide, by decide⟩)
  obtain ⟨j, hj, hi⟩ := C87_written_iff_partial _ _ hread
  refine ⟨_, _, j, hread, rfl, ?_, hj, ?_⟩
  · intro g hg
    rw [List.mem_singleton] at hg
    subst hg
    exact List.length_replicate
  · refine (C85_refused j).2 fun hn => ?_
    have := hi.1 ((C85_refused j).1 hn) f (by simp)
    rw [show f.pre.length = 4997 from List.length_replicate] at this
    omega

end Rtcg
