import Mathlib.Data.List.Basic
import Mathlib.Data.List.Nodup
import Mathlib.Data.List.Perm.Basic

/-!
# Association-list maps

`std::map`, `std::unordered_map` are modelled by key-unique association lists.  The order of the
list is the (arbitrary) iteration order.  Only the operations used by the modelled code are here.
-/

set_option linter.unusedSectionVars false
set_option linter.unusedSimpArgs false

namespace Verif

/-- Map from `K` to `V`, an association list. Key uniqueness is an invariant (`AMap.Nodup`). -/
abbrev AMap (K V : Type*) := List (K × V)

namespace AMap

variable {K V : Type*} [DecidableEq K]

/-- `m.find(k)` -/
def find? : AMap K V → K → Option V
  | [], _ => none
  | (a, v) :: m, k => if a = k then some v else find? m k

/-- `m.erase(k)` -/
def erase (m : AMap K V) (k : K) : AMap K V := m.filter (fun p => p.1 ≠ k)

/-- `m[k] = v` -/
def set (m : AMap K V) (k : K) (v : V) : AMap K V := (k, v) :: erase m k

/-- `m.insert({k,v})` / `m.emplace(k,v)`: keeps an existing entry -/
def insertNew (m : AMap K V) (k : K) (v : V) : AMap K V :=
  match find? m k with
  | some _ => m
  | none => (k, v) :: m

/-- the keys, in iteration order -/
def keys (m : AMap K V) : List K := m.map Prod.fst

/-- key uniqueness -/
def NodupKeys (m : AMap K V) : Prop := (keys m).Nodup

@[simp] theorem find?_nil (k : K) : find? ([] : AMap K V) k = none := rfl

@[simp] theorem keys_nil : keys ([] : AMap K V) = [] := rfl
@[simp] theorem keys_cons (p : K × V) (m : AMap K V) : keys (p :: m) = p.1 :: keys m := rfl

theorem find?_cons (a : K) (v : V) (m : AMap K V) (k : K) :
    find? ((a, v) :: m) k = if a = k then some v else find? m k := rfl

theorem find?_eq_none {m : AMap K V} {k : K} : find? m k = none ↔ k ∉ keys m := by
  induction m with
  | nil => simp
  | cons p m ih =>
    obtain ⟨a, v⟩ := p
    simp only [find?_cons, keys_cons, List.mem_cons, not_or]
    by_cases h : a = k
    · simp [h]
    · simp [h, ih, Ne.symm h, eq_comm]

theorem find?_isSome {m : AMap K V} {k : K} : (find? m k).isSome ↔ k ∈ keys m := by
  rw [Option.isSome_iff_ne_none, Ne, find?_eq_none, not_not]

theorem mem_of_find? {m : AMap K V} {k : K} {v : V} (h : find? m k = some v) : (k, v) ∈ m := by
  induction m with
  | nil => simp at h
  | cons p m ih =>
    obtain ⟨a, w⟩ := p
    rw [find?_cons] at h
    by_cases hak : a = k
    · simp only [hak, if_true, Option.some.injEq] at h; subst hak; subst h; simp
    · rw [if_neg hak] at h; exact List.mem_cons_of_mem _ (ih h)

theorem mem_keys_of_find? {m : AMap K V} {k : K} {v : V} (h : find? m k = some v) : k ∈ keys m :=
  List.mem_map.2 ⟨_, mem_of_find? h, rfl⟩

theorem mem_keys_of_mem {m : AMap K V} {p : K × V} (h : p ∈ m) : p.1 ∈ keys m :=
  List.mem_map.2 ⟨_, h, rfl⟩

theorem find?_of_mem {m : AMap K V} (hn : NodupKeys m) {k : K} {v : V} (h : (k, v) ∈ m) :
    find? m k = some v := by
  induction m with
  | nil => simp at h
  | cons p m ih =>
    obtain ⟨a, w⟩ := p
    unfold NodupKeys at hn
    rw [keys_cons, List.nodup_cons] at hn
    rcases List.mem_cons.1 h with h | h
    · injection h with h1 h2; subst h1; subst h2; simp [find?_cons]
    · have hk : k ∈ keys m := mem_keys_of_mem h
      have : a ≠ k := fun hc => hn.1 (hc ▸ hk)
      rw [find?_cons, if_neg this]; exact ih hn.2 h

theorem mem_iff_find? {m : AMap K V} (hn : NodupKeys m) {k : K} {v : V} :
    (k, v) ∈ m ↔ find? m k = some v := ⟨find?_of_mem hn, mem_of_find?⟩

@[simp] theorem find?_erase_self (m : AMap K V) (k : K) : find? (erase m k) k = none := by
  rw [find?_eq_none]
  simp [keys, erase]

theorem find?_erase_ne (m : AMap K V) {k k' : K} (h : k' ≠ k) :
    find? (erase m k) k' = find? m k' := by
  induction m with
  | nil => rfl
  | cons p m ih =>
    obtain ⟨a, v⟩ := p
    by_cases hak : a = k
    · subst hak
      have : erase ((a, v) :: m) a = erase m a := by simp [erase]
      rw [this, ih, find?_cons, if_neg (Ne.symm h)]
    · have : erase ((a, v) :: m) k = (a, v) :: erase m k := by simp [erase, hak]
      rw [this, find?_cons, find?_cons, ih]

theorem find?_erase (m : AMap K V) (k k' : K) :
    find? (erase m k) k' = if k' = k then none else find? m k' := by
  by_cases h : k' = k
  · subst h; simp
  · rw [if_neg h, find?_erase_ne m h]

@[simp] theorem find?_set_self (m : AMap K V) (k : K) (v : V) : find? (set m k v) k = some v := by
  simp [set, find?_cons]

theorem find?_set_ne (m : AMap K V) {k k' : K} (v : V) (h : k' ≠ k) :
    find? (set m k v) k' = find? m k' := by
  rw [set, find?_cons, if_neg (Ne.symm h), find?_erase_ne m h]

theorem find?_set (m : AMap K V) (k k' : K) (v : V) :
    find? (set m k v) k' = if k' = k then some v else find? m k' := by
  by_cases h : k' = k
  · subst h; simp
  · rw [if_neg h, find?_set_ne m v h]

theorem keys_erase (m : AMap K V) (k : K) : keys (erase m k) = (keys m).filter (· ≠ k) := by
  simp [keys, erase, List.filter_map, Function.comp_def]

theorem nodupKeys_erase {m : AMap K V} (h : NodupKeys m) (k : K) : NodupKeys (erase m k) := by
  unfold NodupKeys; rw [keys_erase]; exact List.Nodup.filter _ h

theorem nodupKeys_set {m : AMap K V} (h : NodupKeys m) (k : K) (v : V) : NodupKeys (set m k v) := by
  unfold NodupKeys set
  rw [keys_cons, List.nodup_cons]
  refine ⟨?_, nodupKeys_erase h k⟩
  rw [keys_erase]; simp

theorem mem_keys_erase {m : AMap K V} {k k' : K} : k' ∈ keys (erase m k) ↔ k' ∈ keys m ∧ k' ≠ k := by
  rw [keys_erase, List.mem_filter]; simp

theorem mem_keys_set {m : AMap K V} {k k' : K} {v : V} :
    k' ∈ keys (set m k v) ↔ k' = k ∨ k' ∈ keys m := by
  rw [set, keys_cons, List.mem_cons, mem_keys_erase]
  by_cases h : k' = k <;> simp [h]

theorem find?_insertNew (m : AMap K V) (k k' : K) (v : V) :
    find? (insertNew m k v) k' = if k' = k ∧ find? m k = none then some v else find? m k' := by
  unfold insertNew
  cases h : find? m k with
  | some w => simp
  | none =>
    simp only [and_true, find?_cons]
    by_cases hk : k' = k
    · subst hk; simp
    · rw [if_neg (Ne.symm hk), if_neg hk]

theorem nodupKeys_insertNew {m : AMap K V} (h : NodupKeys m) (k : K) (v : V) :
    NodupKeys (insertNew m k v) := by
  unfold insertNew
  cases hf : find? m k with
  | some w => exact h
  | none =>
    unfold NodupKeys
    rw [keys_cons, List.nodup_cons]
    exact ⟨find?_eq_none.1 hf, h⟩

theorem nodupKeys_nil : NodupKeys ([] : AMap K V) := List.nodup_nil

theorem erase_of_not_mem {m : AMap K V} {k : K} (h : k ∉ keys m) : erase m k = m := by
  unfold erase
  rw [List.filter_eq_self]
  intro p hp
  have : p.1 ≠ k := fun hc => h (hc ▸ mem_keys_of_mem hp)
  simpa using this

end AMap
end Verif
