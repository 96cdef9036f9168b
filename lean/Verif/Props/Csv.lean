import Verif.Model.Csv
import Verif.Spec.Csv
import Mathlib.Tactic.Common
import Mathlib.Data.List.Induction

/-!
# C09, C10: reading CSV
-/

namespace Verif.Csv
open Spec

/-! ### helper lemmas -/

theorem foldl_bare {f : Str} (h : ∀ c ∈ f, c ≠ ',' ∧ c ≠ '"') (d : List Str) (cur : Str) :
    f.foldl Parser.step ⟨.unquotedField, d, cur⟩ = ⟨.unquotedField, d, cur ++ f⟩ := by
  induction f generalizing cur with
  | nil => simp
  | cons c f ih =>
    have hc := h c (by simp)
    rw [List.foldl_cons]
    have : Parser.step ⟨.unquotedField, d, cur⟩ c = ⟨.unquotedField, d, cur ++ [c]⟩ := by
      simp [Parser.step, hc.1, hc.2]
    rw [this, ih (fun x hx => h x (by simp [hx]))]
    simp

theorem foldl_doubled (f : Str) (d : List Str) (cur : Str) :
    (doubled f).foldl Parser.step ⟨.quotedField, d, cur⟩ = ⟨.quotedField, d, cur ++ f⟩ := by
  induction f generalizing cur with
  | nil => simp [doubled]
  | cons c f ih =>
    unfold doubled
    by_cases hc : c = '"'
    · rw [if_pos hc]; subst hc
      simp only [List.foldl_cons]
      have : Parser.step (Parser.step ⟨.quotedField, d, cur⟩ '"') '"'
          = ⟨.quotedField, d, cur ++ ['"']⟩ := by simp [Parser.step]
      rw [this, ih]; simp
    · rw [if_neg hc, List.foldl_cons]
      have : Parser.step ⟨.quotedField, d, cur⟩ c = ⟨.quotedField, d, cur ++ [c]⟩ := by
        simp [Parser.step, hc]
      rw [this, ih]; simp

/-- after a whole field the parser is ready for a comma or the end -/
theorem foldl_field {f s : Str} (h : FieldText f s) (d : List Str) :
    ∃ st, st ≠ CSVState.quotedField ∧
      s.foldl Parser.step ⟨.unquotedField, d, []⟩ = ⟨st, d, f⟩ := by
  cases h with
  | quoted =>
    refine ⟨.quotedQuote, by simp, ?_⟩
    unfold quoted
    rw [List.foldl_cons]
    have : Parser.step ⟨.unquotedField, d, []⟩ '"' = ⟨.quotedField, d, []⟩ := by simp [Parser.step]
    rw [this, List.foldl_append, foldl_doubled]
    simp [Parser.step]
  | bare hb =>
    exact ⟨.unquotedField, by simp, by rw [foldl_bare hb]; simp⟩

theorem foldl_row {fs : List Str} {r : Str} (h : RowText fs r) (d : List Str) :
    ∃ st done cur, r.foldl Parser.step ⟨.unquotedField, d, []⟩ = ⟨st, done, cur⟩ ∧
      done ++ [cur] = d ++ fs := by
  induction h generalizing d with
  | last hf =>
    obtain ⟨st, _, h⟩ := foldl_field hf d
    exact ⟨st, d, _, h, rfl⟩
  | @cons f s fs r hf _ ih =>
    obtain ⟨st, hst, h⟩ := foldl_field hf d
    rw [List.foldl_append, h, List.foldl_cons]
    have : Parser.step ⟨st, d, f⟩ ',' = ⟨.unquotedField, d ++ [f], []⟩ := by
      cases st <;> simp_all [Parser.step]
    rw [this]
    obtain ⟨st', done, cur, h1, h2⟩ := ih (d ++ [f])
    exact ⟨st', done, cur, h1, by rw [h2]; simp⟩

/-- **C09a.** A row written as CSV text, each field quoted or bare, is read back as the same
fields. -/
theorem csv_row_round_trip {fields : List Str} {text : Str} (h : RowText fields text) :
    readRow text = fields := by
  obtain ⟨st, done, cur, h1, h2⟩ := foldl_row h []
  unfold readRow Parser.init
  rw [h1]
  simpa using h2

/-- every non-empty list of fields has a text -/
theorem rowText_exists (fields : List Str) (hne : fields ≠ []) : ∃ text, RowText fields text := by
  induction fields with
  | nil => exact absurd rfl hne
  | cons f fs ih =>
    by_cases h : fs = []
    · subst h; exact ⟨_, .last (.quoted f)⟩
    · obtain ⟨t, ht⟩ := ih h; exact ⟨_, .cons (.quoted f) ht⟩

/-- fields `a,b`, `say "hi"`, empty and `x` -/
example : RowText ["a,b".toList, "say \"hi\"".toList, [], "x".toList]
    "\"a,b\",\"say \"\"hi\"\"\",,x".toList ∧
    readRow "\"a,b\",\"say \"\"hi\"\"\",,x".toList
      = ["a,b".toList, "say \"hi\"".toList, [], "x".toList] := by
  refine ⟨?_, by decide⟩
  exact .cons (.quoted _) (.cons (.quoted _) (.cons (.bare (by simp)) (.last (.bare (by decide)))))

theorem readRow_length_aux (text : Str) (p : Parser) (q : Nat)
    (hq : p.state = .quotedField ↔ q % 2 = 1) :
    (text.foldl Parser.step p).done.length = p.done.length + freeCommas q text := by
  induction text generalizing p q with
  | nil => simp [freeCommas]
  | cons c s ih =>
    rw [List.foldl_cons]
    unfold freeCommas
    obtain ⟨st, d, cur⟩ := p
    by_cases h1 : c = '"'
    · rw [if_pos h1]; subst h1
      rw [ih _ (q + 1)]
      · cases st <;> simp [Parser.step]
      · cases st <;> simp_all [Parser.step] <;> omega
    · rw [if_neg h1]
      by_cases h2 : c = ','
      · subst h2
        cases st with
        | unquotedField =>
          rw [if_pos ⟨rfl, by simp at hq; omega⟩, ih _ q (by simpa [Parser.step] using hq)]
          simp [Parser.step]; omega
        | quotedField =>
          rw [if_neg (by simp at hq; omega), ih _ q (by simpa [Parser.step] using hq)]
          simp [Parser.step]
        | quotedQuote =>
          rw [if_pos ⟨rfl, by simp at hq; omega⟩, ih _ q (by simp [Parser.step] at hq ⊢; exact hq)]
          simp [Parser.step]; omega
      · rw [if_neg (by simp [h2]), ih _ q (by cases st <;> simp [Parser.step, h1, h2] at hq ⊢ <;> exact hq)]
        cases st <;> simp [Parser.step, h1, h2]

/-- **C09b.** For every text whatsoever the reader yields exactly one field more than there are
commas outside quotes. -/
theorem csv_field_count (text : Str) : (readRow text).length = freeCommas 0 text + 1 := by
  unfold readRow
  simp only [List.length_append, List.length_singleton]
  rw [readRow_length_aux text Parser.init 0 (by simp [Parser.init])]
  simp [Parser.init]

/-- Text that is not well formed loses a character: the one after a closing quote. -/
theorem csv_char_after_quote_dropped :
    readRow "\"ab\"cd,e".toList = ["abd".toList, "e".toList] := by decide

/-! ### whole files -/

theorem linesAux_append {l : Str} (h : '\n' ∉ l) (cur t : Str) :
    linesAux cur (l ++ '\n' :: t) = (cur ++ l) :: linesAux [] t := by
  induction l generalizing cur with
  | nil => cases cur <;> simp [linesAux]
  | cons c l ih =>
    have hc : c ≠ '\n' := by rintro rfl; exact h (by simp)
    have hl : '\n' ∉ l := fun hm => h (by simp [hm])
    have : linesAux cur ((c :: l) ++ '\n' :: t) = linesAux (cur ++ [c]) (l ++ '\n' :: t) := by
      cases cur <;> simp [linesAux, hc]
    rw [this, ih hl]; simp

theorem linesAux_end {l : Str} (h : '\n' ∉ l) (cur : Str) (hne : cur ++ l ≠ []) :
    linesAux cur l = [cur ++ l] := by
  induction l generalizing cur with
  | nil =>
    cases cur with
    | nil => simp at hne
    | cons c cur => simp [linesAux]
  | cons c l ih =>
    have hc : c ≠ '\n' := by rintro rfl; exact h (by simp)
    have hl : '\n' ∉ l := fun hm => h (by simp [hm])
    have : linesAux cur (c :: l) = linesAux (cur ++ [c]) l := by
      cases cur <;> simp [linesAux, hc]
    rw [this, ih hl _ (by simp)]; simp

theorem mem_doubled {c : Char} {f : Str} (h : c ∈ doubled f) : c ∈ f ∨ c = '"' := by
  induction f with
  | nil => simp [doubled] at h
  | cons x f ih =>
    unfold doubled at h
    split at h
    · simp at h; rcases h with h | h
      · exact .inr h
      · rcases ih h with h | h
        · exact .inl (by simp [h])
        · exact .inr h
    · simp at h; rcases h with h | h
      · exact .inl (by simp [h])
      · rcases ih h with h | h
        · exact .inl (by simp [h])
        · exact .inr h

theorem mem_fieldText {c : Char} {f s : Str} (h : FieldText f s) (hc : c ∈ s) : c ∈ f ∨ c = '"' := by
  cases h with
  | quoted =>
    simp [quoted] at hc
    rcases hc with h | h | h
    · exact .inr h
    · exact mem_doubled h
    · exact .inr h
  | bare _ => exact .inl hc

theorem mem_rowText {c : Char} {fs : List Str} {r : Str} (h : RowText fs r) (hc : c ∈ r) :
    (∃ f ∈ fs, c ∈ f) ∨ c = '"' ∨ c = ',' := by
  induction h with
  | last hf =>
    rcases mem_fieldText hf hc with h | h
    · exact .inl ⟨_, by simp, h⟩
    · exact .inr (.inl h)
  | cons hf _ ih =>
    simp at hc
    rcases hc with h | h | h
    · rcases mem_fieldText hf h with h | h
      · exact .inl ⟨_, by simp, h⟩
      · exact .inr (.inl h)
    · exact .inr (.inr h)
    · rcases ih h with ⟨f, hf, hc⟩ | h
      · exact .inl ⟨f, by simp [hf], hc⟩
      · exact .inr h

theorem stripCr_of_not_mem {r : Str} (h : '\r' ∉ r) : stripCr r = r := by
  unfold stripCr
  rw [if_neg]
  intro hl
  exact h (List.mem_of_getLast? hl)

theorem stripCr_append (r : Str) : stripCr (r ++ ['\r']) = r := by
  unfold stripCr; simp

/-- **C09c.** A whole file, with Unix or Windows line ends (even mixed) and with or without a line
break at its end, is read back as the same table, provided no field contains a line break
character. -/
theorem csv_table_round_trip {table : List (List Str)} {text : Str} (h : TableText table text)
    (hnl : ∀ row ∈ table, ∀ f ∈ row, '\n' ∉ f ∧ '\r' ∉ f) : read text = table := by
  have noNl : ∀ {row : List Str} {r : Str}, RowText row r → (∀ f ∈ row, '\n' ∉ f ∧ '\r' ∉ f) →
      '\n' ∉ r ∧ '\r' ∉ r := by
    intro row r hr hrow
    constructor
    · intro hm
      rcases mem_rowText hr hm with ⟨f, hf, hc⟩ | h | h
      · exact (hrow f hf).1 hc
      · exact absurd h (by decide)
      · exact absurd h (by decide)
    · intro hm
      rcases mem_rowText hr hm with ⟨f, hf, hc⟩ | h | h
      · exact (hrow f hf).2 hc
      · exact absurd h (by decide)
      · exact absurd h (by decide)
  unfold read lines
  induction h with
  | nil => simp [linesAux]
  | lf hr _ ih =>
    obtain ⟨n1, n2⟩ := noNl hr (hnl _ (by simp))
    rw [linesAux_append n1, List.map_cons, ih (fun row h => hnl row (by simp [h]))]
    simp only [List.nil_append]
    rw [stripCr_of_not_mem n2, csv_row_round_trip hr]
  | @crlf row r rows t hr _ ih =>
    obtain ⟨n1, n2⟩ := noNl hr (hnl _ (by simp))
    have e : r ++ '\r' :: '\n' :: t = (r ++ ['\r']) ++ '\n' :: t := by simp
    rw [e, linesAux_append (by simp [n1]), List.map_cons, ih (fun row h => hnl row (by simp [h]))]
    simp only [List.nil_append]
    rw [stripCr_append, csv_row_round_trip hr]
  | unterminated hr hne =>
    obtain ⟨n1, n2⟩ := noNl hr (hnl _ (by simp))
    rw [linesAux_end n1 _ (by simpa using hne)]
    simp only [List.nil_append, List.map_cons, List.map_nil]
    rw [stripCr_of_not_mem n2, csv_row_round_trip hr]

example : TableText [["id".toList, "mag".toList], ["1".toList, "2,5".toList]]
    "id,mag\r\n1,\"2,5\"\n".toList :=
  .crlf (.cons (.bare (by decide)) (.last (.bare (by decide))))
    (.lf (.cons (.bare (by decide)) (.last (.quoted _))) .nil)

/-! ### header mapping -/

theorem formatRow_aux (header : List Str) (columns : List Str) (k : Nat) (m : AMap Str Str)
    (name : Str) :
    ((header.zipIdx k).foldl (fun row hi => row.set hi.1 (columns.getD hi.2 [])) m).find? name =
      if name ∈ header then
        some (columns.getD (k + (header.length - 1 - header.reverse.idxOf name)) [])
      else m.find? name := by
  induction header using List.reverseRecOn with
  | nil => simp
  | append_singleton hs x ih =>
    rw [List.zipIdx_append, List.foldl_append]
    simp only [List.zipIdx_cons, List.zipIdx_nil, List.foldl_cons, List.foldl_nil]
    by_cases hx : name = x
    · subst hx
      rw [AMap.find?_set_self]
      simp
    · rw [AMap.find?_set_ne _ _ hx, ih]
      by_cases hm : name ∈ hs
      · rw [if_pos hm, if_pos (by simp [hm])]
        have hx' : ¬ x = name := fun h => hx h.symm
        simp [List.idxOf_cons, hx']
        congr 1
        congr 1
        congr 1
        omega
      · rw [if_neg hm, if_neg (by simp [hm, hx])]

/-- **C10a.** In every row the header name at position `i` maps to the row's `i`-th field, the
empty text when the row is too short; names not in the header (in particular excess fields) do not
appear, and no row is lost.  Header names must be distinct. -/
theorem csv_header_mapping (header : List Str) (hnd : header.Nodup) (rows : List (List Str)) :
    (format header rows).length = rows.length ∧
    ∀ (r : Nat) (row : List Str), rows[r]? = some row → ∃ m : AMap Str Str, (format header rows)[r]? = some m ∧
      (∀ (i : Nat) name, header[i]? = some name → m.find? name = some (row.getD i [])) ∧
      (∀ name, name ∉ header → m.find? name = none) := by
  refine ⟨by simp [format], ?_⟩
  intro r row hr
  refine ⟨formatRow header row, by simp [format, hr], ?_, ?_⟩
  · intro i name hi
    unfold formatRow
    rw [formatRow_aux]
    have hil : i < header.length := by
      rw [List.getElem?_eq_some_iff] at hi; exact hi.1
    have hmem : name ∈ header := List.mem_of_getElem? hi
    rw [if_pos hmem]
    have hget : header[i] = name := by
      rw [List.getElem?_eq_some_iff] at hi; exact hi.2
    have hnd' : header.reverse.Nodup := List.nodup_reverse.2 hnd
    have hidx : header.reverse.idxOf name = header.length - 1 - i := by
      have h1 : header.length - 1 - i < header.reverse.length := by simp; omega
      have h2 : header.reverse[header.length - 1 - i] = name := by
        rw [List.getElem_reverse]
        rw [← hget]
        congr 1
        omega
      have := hnd'.idxOf_getElem _ h1
      rw [h2] at this
      exact this
    rw [hidx]
    congr 2
    omega
  · intro name hn
    unfold formatRow
    rw [formatRow_aux, if_neg hn]
    rfl

theorem idxOf_le_of_getElem? {l : List Str} {a : Str} {i : Nat} (h : l[i]? = some a) :
    l.idxOf a ≤ i := by
  induction l generalizing i with
  | nil => simp at h
  | cons x l ih =>
    rw [List.idxOf_cons]
    by_cases hx : x = a
    · simp [hx]
    · cases i with
      | zero => simp at h; exact absurd h hx
      | succ i =>
        have := ih (by simpa using h)
        have e : (x == a) = false := by simpa using hx
        rw [e]; simp; exact this

/-- With repeated header names the last column of that name is used. -/
theorem csv_header_repeated (header : List Str) (row : List Str) (i : Nat) (name : Str)
    (hi : header[i]? = some name) (hlast : ∀ j, i < j → header[j]? ≠ some name) :
    (formatRow header row).find? name = some (row.getD i []) := by
  unfold formatRow
  have hil : i < header.length := by rw [List.getElem?_eq_some_iff] at hi; exact hi.1
  have hget : header[i] = name := by rw [List.getElem?_eq_some_iff] at hi; exact hi.2
  rw [formatRow_aux, if_pos (List.mem_of_getElem? hi)]
  have hlen : header.reverse.idxOf name < header.reverse.length := by
    rw [List.idxOf_lt_length_iff]; simp; exact List.mem_of_getElem? hi
  have hle : header.reverse.idxOf name ≤ header.length - 1 - i := by
    have h1 : header.length - 1 - i < header.reverse.length := by simp; omega
    have h2 : header.reverse[header.length - 1 - i] = name := by
      rw [List.getElem_reverse, ← hget]; congr 1; omega
    exact idxOf_le_of_getElem? (by rw [List.getElem?_eq_some_iff]; exact ⟨h1, h2⟩)
  have hge : header.length - 1 - i ≤ header.reverse.idxOf name := by
    by_contra hc
    have hc := Nat.lt_of_not_le hc
    have h2 := List.getElem_idxOf hlen
    rw [List.getElem_reverse] at h2
    refine hlast (header.length - 1 - header.reverse.idxOf name) (by simp at hlen; omega) ?_
    rw [List.getElem?_eq_some_iff]
    exact ⟨by omega, h2⟩
  have e : 0 + (header.length - 1 - header.reverse.idxOf name) = i := by omega
  rw [e]

/-- **C10b.** Reading a file with header: the header is the file's first row, all other rows are
mapped. -/
theorem csv_read_with_header_partial {header : List Str} {rows : List (List Str)} {text : Str}
    (h : TableText (header :: rows) text)
    (hnl : ∀ row ∈ header :: rows, ∀ f ∈ row, '\n' ∉ f ∧ '\r' ∉ f) :
    readWithHeader text = .ok (format header rows) := by
  unfold readWithHeader
  rw [csv_table_round_trip h hnl]

example : ["id".toList, "mag".toList].Nodup ∧
    readWithHeader "id,mag\n1,2.5,extra\n2".toList =
      .ok [[("mag".toList, "2.5".toList), ("id".toList, "1".toList)],
           [("mag".toList, []), ("id".toList, "2".toList)]] := by decide

/-- **C10, "an empty file is handled", is false**: reading an empty file with header is undefined
behaviour. -/
theorem csv_empty_file_ub : readWithHeader [] = .ub := by decide

end Verif.Csv
