import Verif.Spec.CommandLine

/-!
# C93: which command is executed, and which commands may send messages
-/

set_option linter.unusedSimpArgs false

namespace Verif.CommandLine
open Spec Verif.Daemon
open Verif.Csv (Str)

/-- **C93a** Exactly one command is executed: the first one that is asked for, in the order reload request, clusters, preloading,
waveforms, catalog, merging, relocation of a catalog, of given origins, of the origins of an XML file; if there is none, real
time. -/
theorem mode_first (o : Options) : ∃ before after, commands o = before ++ (mode o, true) :: after ∧ ∀ c ∈ before, c.2 = false := by
  unfold mode commands
  repeat' split
  · exact ⟨[], _, by simp [*]; rfl, by simp [*]⟩
  · exact ⟨[_], _, by simp [*]; exact ⟨rfl, rfl⟩, by simp [*]⟩
  · exact ⟨[_, _], _, by simp [*]; exact ⟨rfl, rfl, rfl⟩, by simp [*]⟩
  · exact ⟨[_, _, _], _, by simp [*]; exact ⟨rfl, rfl, rfl, rfl⟩, by simp [*]⟩
  · exact ⟨[_, _, _, _], _, by simp [*]; exact ⟨rfl, rfl, rfl, rfl, rfl⟩, by simp [*]⟩
  · exact ⟨[_, _, _, _, _], _, by simp [*]; exact ⟨rfl, rfl, rfl, rfl, rfl, rfl⟩, by simp [*]⟩
  · exact ⟨[_, _, _, _, _, _], _, by simp [*]; exact ⟨rfl, rfl, rfl, rfl, rfl, rfl, rfl⟩, by simp [*]⟩
  · exact ⟨[_, _, _, _, _, _, _], _, by simp [*]; exact ⟨rfl, rfl, rfl, rfl, rfl, rfl, rfl, rfl⟩, by simp [*]⟩
  · exact ⟨[_, _, _, _, _, _, _, _], _, by simp [*]; exact ⟨rfl, rfl, rfl, rfl, rfl, rfl, rfl, rfl, rfl⟩, by simp [*]⟩
  · exact ⟨[_, _, _, _, _, _, _, _, _], [], by simp [*]; exact ⟨rfl, rfl, rfl, rfl, rfl, rfl, rfl, rfl, rfl⟩, by simp [*]⟩

/-- **C93b** Apart from reload requests, the program may send messages (is not in test mode) exactly in real time and when origins
given by their ids are relocated, without a test, and in the second case without XML file and XML output. -/
theorem sends_iff {o : Options} (h : mode o ≠ .sendReload) : testMode o = false ↔ MaySend o := by
  unfold MaySend
  unfold mode at h ⊢
  unfold testMode offline
  repeat' split at h
  all_goals (try exact absurd rfl h)
  all_goals simp_all
  cases o.test <;> cases o.xmlout <;> by_cases he : o.eventXML = [] <;> simp [he]

/-- **C93c** Messaging is switched off for all commands that neither relocate in real time, nor given origins, nor send a request;
it is on in real time. -/
theorem offline_iff {o : Options} (h : mode o ≠ .sendReload) :
    offline o = true ↔ mode o ≠ .realTime ∧ (mode o = .origins → o.test = true ∨ o.eventXML ≠ []) := by
  unfold mode at h ⊢
  unfold offline
  repeat' split at h
  all_goals (try exact absurd rfl h)
  all_goals simp_all [or_comm]

/-- **C93d** A reload request sends exactly one message, with the name of the profile, if there is a connection and the message can
be sent. -/
theorem reload_request {o : Options} (h : offline o = false) (ok : Bool) :
    sendReload o true ok = .ok (ok, if ok then [o.reloadProfileMsg] else []) := by
  unfold sendReload
  rw [h]; rfl

/-- Together with an option that switches messaging off, a reload request goes wrong: the missing connection is used. -/
theorem reload_request_offline_ub {o : Options} (h : offline o = true) (connected ok : Bool) : sendReload o connected ok = .ub := by
  unfold sendReload
  rw [h]
  cases connected <;> rfl

namespace ModeExample

/-- relocating origins by their ids sends messages, unless the results are written as XML -/
def byIds : Options := { originIDs := "o1".toList }

example : mode byIds = .origins ∧ MaySend byIds ∧ offline byIds = false ∧ ¬ MaySend { byIds with xmlout := true } ∧
    ¬ MaySend { byIds with test := true } ∧ MaySend { byIds with originIDs := [] } := by
  unfold MaySend
  decide +kernel

/-- a catalog is written although origins were given too -/
example : mode { byIds with dumpCatalog := "ids.csv".toList } = .dumpCatalog ∧
    commands { byIds with dumpCatalog := "ids.csv".toList } =
      [(.sendReload, false), (.dumpClusters, false), (.preloadWaveforms, false), (.dumpWaveforms, false), (.dumpCatalog, true),
       (.mergeCatalogs, false), (.relocateCatalog, false), (.origins, true), (.xml, false), (.realTime, true)] := by decide +kernel

/-- a reload request together with an XML file -/
example : mode { reloadProfileMsg := "p".toList, eventXML := "e.xml".toList } = .sendReload ∧
    offline { reloadProfileMsg := "p".toList, eventXML := "e.xml".toList } = true ∧
    offline { reloadProfileMsg := "p".toList } = false := by decide +kernel

end ModeExample

end Verif.CommandLine
