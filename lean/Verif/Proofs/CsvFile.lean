import Verif.Props.PairFile

/-!
# Files with a header line: lemmas used by all the file formats
-/

namespace Verif.CsvFile
open Verif.Csv Verif.Csv.Spec Verif.PairFile

/-- a row that can be written without quotes -/
def CleanRow (row : List Str) : Prop := row ≠ [] ∧ ∀ f ∈ row, Clean f

theorem read_file {header : List Str} {rows : List (List Str)} (hh : CleanRow header) (hr : ∀ row ∈ rows, CleanRow row) :
    readWithHeader (fileText (header :: rows)) = .ok (rows.map (formatRow header)) := by
  have hall : ∀ row ∈ header :: rows, CleanRow row := by
    intro row h
    rcases List.mem_cons.1 h with rfl | h
    · exact hh
    · exact hr row h
  have htab : TableText (header :: rows) (fileText (header :: rows)) := tableText_fileText _ hall
  exact csv_read_with_header_partial htab (fun row hrow f hf =>
    ⟨fun h => ((hall row hrow).2 f hf _ h).2.2.1 rfl, fun h => ((hall row hrow).2 f hf _ h).2.2.2 rfl⟩)

theorem find_column {header : List Str} (hnd : header.Nodup) (row : List Str) (i : Nat) (name : String)
    (h : header[i]? = some name.toList) : column (formatRow header row) name = .ok (row.getD i []) := by
  obtain ⟨m, h1, h2, -⟩ := (csv_header_mapping header hnd [row]).2 0 row rfl
  have e : m = formatRow header row := by
    simp only [format, List.map_cons, List.map_nil, List.getElem?_cons_zero, Option.some.injEq] at h1
    exact h1.symm
  subst e
  unfold column
  rw [h2 i _ h]; rfl

theorem find_none {header : List Str} (hnd : header.Nodup) (row : List Str) (name : Str) (h : name ∉ header) :
    (formatRow header row).find? name = none := by
  obtain ⟨m, h1, -, h3⟩ := (csv_header_mapping header hnd [row]).2 0 row rfl
  have e : m = formatRow header row := by
    simp only [format, List.map_cons, List.map_nil, List.getElem?_cons_zero, Option.some.injEq] at h1
    exact h1.symm
  subst e
  exact h3 name h

theorem find_some {header : List Str} (hnd : header.Nodup) (row : List Str) (i : Nat) (name : Str)
    (h : header[i]? = some name) : (formatRow header row).find? name = some (row.getD i []) := by
  obtain ⟨m, h1, h2, -⟩ := (csv_header_mapping header hnd [row]).2 0 row rfl
  have e : m = formatRow header row := by
    simp only [format, List.map_cons, List.map_nil, List.getElem?_cons_zero, Option.some.injEq] at h1
    exact h1.symm
  subst e
  exact h2 i _ h

theorem mapRows_ok {A B : Type} {f : A → Outcome B} {g : A → B} : ∀ {l : List A}, (∀ a ∈ l, f a = .ok (g a)) →
    mapRows f l = .ok (l.map g)
  | [], _ => rfl
  | a :: l, h => by
    unfold mapRows
    rw [h a (by simp), mapRows_ok (fun a ha => h a (by simp [ha]))]
    rfl

end Verif.CsvFile
