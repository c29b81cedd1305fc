import Verif.Lemmas.Site

/-! C86: the MQTT bridge together with a device: what the device is asked, and what becomes of everything it sends. -/

namespace Verif.Mqtt

open Verif Verif.Serial Verif.Modem

/-- The set-up, steps of the reading thread. -/
def siteSetUp : List SiteEvent := List.replicate 9 (.main 7)
def siteReads (n : Nat) : List SiteEvent := List.replicate n (.reader none)

/-- C86: all the bridge ever writes to its device is one frame: the command with tag `rand` that reads 8 bytes of file 0
(the UID) and 17 bytes of file 2 (the firmware version). It is written by the end of the set-up. -/
theorem C86_asks {es : List SiteEvent} {s : Site} (h : Site.start.run es = some s) :
    (s.bridge.modem.written = [] ∧ s.bridge.stage ≠ .ready) ∨
    ∃ rand, s.bridge.modem.written = frame 0 1 [0xB4, rand, 1, 0, 0, 8, 1, 2, 0, 17] := by
  obtain ⟨fs, -, h1, -⟩ := Site.run_bridge h
  have hd := doing_run h1
  unfold Doing at hd
  cases hg : s.bridge.stage with
  | made => rw [hg] at hd; exact .inl ⟨hd.2.1, by simp⟩
  | connecting =>
    rw [hg] at hd
    obtain ⟨rand, ⟨-, hd⟩ | ⟨-, -, -, -, hd⟩⟩ := hd
    · exact .inr ⟨rand, hd⟩
    · exact .inl ⟨hd, by simp⟩
  | beforeClient => rw [hg] at hd; obtain ⟨rand, -, hd⟩ := hd; exact .inr ⟨rand, hd⟩
  | client => rw [hg] at hd; obtain ⟨rand, -, hd⟩ := hd; exact .inr ⟨rand, hd⟩
  | ready => rw [hg] at hd; obtain ⟨rand, -, hd⟩ := hd; exact .inr ⟨rand, hd⟩

/-- The device sends something first, and answers. -/
example : (Site.start.run ([.send 0 1 [5], .read 3] ++ siteReads 1 ++ siteSetUp ++ [.send 1 1 [0xA3, 7]])).map (fun s =>
    (s.bridge.modem.written, s.bridge.stage)) =
    some ([192, 0, 0, 1, 10, 235, 50, 180, 7, 1, 0, 0, 8, 1, 2, 0, 17], .ready) := by decide +kernel

/-- C86: whatever the device sends and whatever the MQTT client raises, what is published is, in order and unchanged, ALP
and ping messages the device sent, none of them twice; and the reading thread never ends. -/
theorem C86_sound {es : List SiteEvent} {s : Site} (h : Site.start.run es = some s) :
    s.bridge.published.Sublist s.messages ∧ s.bridge.modem.reader.isDead = false := by
  obtain ⟨fs, -, h1, -⟩ := Site.run_bridge h
  obtain ⟨r1, r2, -⟩ := Site.received h
  exact ⟨(C58_sound h1).trans r1.sublist, r2⟩

/-- The client refuses the first of three messages; a log text and a reboot message are in between. -/
example : (Site.start.run (siteSetUp ++ [.send 0 1 [5], .send 0 4 [65], .read 16] ++ siteReads 2 ++
    [.reader (some .valueError)] ++ siteReads 3 ++ [.send 9 5 [1], .send 1 1 [6, 0], .send 1 2 [7], .read 25] ++
    siteReads 11)).map (fun s => (s.bridge.published, s.messages, s.bridge.modem.reader)) =
    some ([[6, 0], [7]], [[5], [6, 0], [7]], .reading) := by decide +kernel

/-- C86: if the client accepts everything, then once everything is dealt with, everything the device has sent is
published, exactly once, in order, unchanged, but for the first messages; and those were all sent before the set-up
was done. -/
theorem C86_all_but_first {es es' : List SiteEvent} {s s' : Site} (h : Site.start.run es = some s)
    (hr : s.bridge.stage = .ready) (h' : s.run es' = some s') (ha : Accepting es) (ha' : Accepting es')
    (hrest : s'.AtRest) :
    ∃ lost, s'.messages = lost ++ s'.bridge.published ∧ lost <+: s.messages := by
  obtain ⟨fs, -, h1, -, h3, -⟩ := Site.run_bridge h
  obtain ⟨fs', -, h1', -, h3', -⟩ := Site.run_bridge h'
  have hstage : s'.bridge.stage = .ready := by
    refine run_induction (P := fun x => x.stage = .ready) h1' hr fun a e b hx _ hst => ?_
    cases e with
    | main r => simp [State.step, State.mainStep, hx] at hst
    | rx bs => obtain ⟨m, -, rfl⟩ := Option.map_eq_some_iff.1 hst; exact hx
    | reader r => exact (readerStep_eq hst).2.1.trans hx
    | serialError => obtain ⟨m, -, rfl⟩ := Option.map_eq_some_iff.1 hst; exact hx
  obtain ⟨done, lost, g1, g2, -, g4, -⟩ := split_since h1 (h3 ha) hr h1' (h3' ha')
  obtain ⟨-, -, hall⟩ := Site.received (Site.run_append h h')
  obtain ⟨hpre, -, -⟩ := Site.received h
  rw [hrest.2] at g1 g4
  simp only [pending, List.append_nil] at g1
  refine ⟨lost, ?_, (g4 hstage trivial).trans hpre⟩
  rw [← hall hrest.1, g1, g2]

/-- Two messages are sent before the set-up is done; the first is dealt with by then and lost. -/
example : (Site.start.run ([.send 0 1 [5], .send 1 1 [6], .read 8] ++ siteReads 5 ++ siteSetUp)).map (fun s =>
    (s.bridge.stage, s.messages, (s.run ([.send 2 1 [7], .read 16] ++ siteReads 7)).map fun s' =>
      (s'.line, s'.bridge.modem.reader, s'.messages, s'.bridge.published))) =
    some (.ready, [[5], [6]], some ([], .reading, [[5], [6], [7]], [[6], [7]])) := by
  set_option synthInstance.maxSize 1000 in decide +kernel

example (n : Nat) : Accepting (siteReads n) ∧ Accepting siteSetUp := by
  constructor <;> intro e h
  · unfold siteReads at h; simp at h
  · unfold siteSetUp at h; simp at h

/-- C86: if the device keeps quiet until the set-up is done, everything it sends is published. -/
theorem C86_all {es es' : List SiteEvent} {s s' : Site} (h : Site.start.run es = some s)
    (hr : s.bridge.stage = .ready) (hq : s.messages = []) (h' : s.run es' = some s') (ha : Accepting es)
    (ha' : Accepting es') (hrest : s'.AtRest) : s'.bridge.published = s'.messages := by
  obtain ⟨lost, h1, h2⟩ := C86_all_but_first h hr h' ha ha' hrest
  rw [hq] at h2
  rw [h1, List.prefix_nil.1 h2, List.nil_append]

/-- The answer to the question of `connect`, in two pieces. -/
example : (Site.start.run siteSetUp).map (fun s => (s.bridge.stage, s.messages,
    (s.run ([.send 0 1 [0xA3, 7], .read 2] ++ siteReads 1 ++ [.read 7] ++ siteReads 4)).map fun s' =>
      (s'.line, s'.bridge.modem.reader, s'.messages, s'.bridge.published))) =
    some (.ready, [], some ([], .reading, [[0xA3, 7]], [[0xA3, 7]])) := by
  set_option synthInstance.maxSize 1000 in decide +kernel

/-- C86: from every state on, the set-up can be finished and everything sent so far be dealt with, without the device
sending anything. -/
theorem C86_settles {es : List SiteEvent} {s : Site} (h : Site.start.run es = some s) :
    ∃ es' s', s.run es' = some s' ∧ Silent es' ∧ Accepting es' ∧ s'.bridge.stage = .ready ∧ s'.AtRest ∧
      s'.messages = s.messages := by
  obtain ⟨k1, s1, g1, r1⟩ := Site.finish_main _ h (Nat.le_refl _)
  have h1 := Site.run_append h g1
  obtain ⟨k2, s2, g2, r2, l2, rd2⟩ := Site.finish_reading _ (C86_sound h1).2 (Nat.le_refl _)
  have h2 := Site.run_append h1 g2
  obtain ⟨es3, s3, g3, q3, l3, r3⟩ : ∃ es3 s3, s2.run es3 = some s3 ∧ (es3 = [] ∨ ∃ n, es3 = [.read n]) ∧ s3.line = [] ∧
      s3.bridge.stage = s2.bridge.stage := by
    by_cases hl : s2.line = []
    · exact ⟨[], s2, rfl, .inl rfl, hl, rfl⟩
    · obtain ⟨s3, a, b, c⟩ := Site.read_all rd2 hl
      exact ⟨_, s3, a, .inr ⟨_, rfl⟩, b, c⟩
  have h3 := Site.run_append h2 g3
  obtain ⟨k4, s4, g4, r4, l4, rd4⟩ := Site.finish_reading _ (C86_sound h3).2 (Nat.le_refl _)
  have hrun := Site.run_append g1 (Site.run_append g2 (Site.run_append g3 g4))
  have hsil : Silent (List.replicate k1 (.main 0) ++ (List.replicate k2 (.reader none) ++
      (es3 ++ List.replicate k4 (.reader none)))) := by
    intro c t p hx
    rcases q3 with rfl | ⟨n, rfl⟩ <;> simp [List.mem_replicate] at hx
  refine ⟨_, s4, hrun, hsil, ?_, ?_, ⟨l4.trans l3, rd4⟩, ?_⟩
  · intro e hx
    rcases q3 with rfl | ⟨n, rfl⟩ <;> simp [List.mem_replicate] at hx
  · rw [r4, r3, r2, r1]
  · obtain ⟨fs, new, -, -, -, e1, -, e2, -⟩ := Site.run_bridge hrun
    rw [Site.messages, Site.messages, e1, e2 hsil, List.append_nil]

example : (Site.start.run ([.main 7, .send 0 1 [5], .send 1 1 [6], .read 8])).map (fun s =>
    (s.bridge.stage, s.messages, s.line.length, s.bridge.modem.reader)) =
    some (.connecting, [[5], [6]], 8, .next [(1, .bytes [5])]) := by decide +kernel

end Verif.Mqtt
