import Verif.Spec.Enrich
import Verif.Props.Testing
import Verif.Props.SiemDataset
/- C90: what a component that keeps datasets knows about them when it handles a log. -/
namespace USiem
open Spec
variable {P : DatasetFamily → Type} {S : Type}

theorem datasetsOf_append (a b : List (SiemMessage P)) : datasetsOf (a ++ b) = datasetsOf a ++ datasetsOf b := by simp [datasetsOf]

theorem Knows.refl (g : DatasetHolder P) : Knows g [] g := fun _ => rfl

theorem Knows.insert {g h : DatasetHolder P} {ds : List (SiemDataset P)} (hk : Knows g ds h) (d : SiemDataset P) : Knows g (ds ++ [d]) (h.insert d) := by
  intro t
  show (h.datasets.insert d.datasetType d).get? t = _
  rw [OMap.get?_insert]
  by_cases e : d.datasetType = t
  · simp [e]
  · have := hk t
    simpa [e, DatasetHolder.get] using this

theorem replay_knows {H : Handlers P S} {view : S → DatasetHolder P} (hk : Keeps H view) {x y : S} {t : List (Call P)} (h : Replay H x t y) :
    Knows (view x) (datasetsOf (inputs t)) (view y) := by
  induction h with
  | none => exact Knows.refl _
  | tick hr ih =>
    rw [inputs_append, datasetsOf_append, hk.tick]
    simpa [inputs, datasetsOf] using ih
  | handled m hr ih =>
    rename_i calls b
    rw [inputs_append, datasetsOf_append]
    by_cases hd : ∃ d, m = .dataset d
    · obtain ⟨d, rfl⟩ := hd
      have := Knows.insert ih d
      rw [← hk.dataset] at this
      exact this
    · rw [hk.other b m (fun d e => hd ⟨d, e⟩)]
      have : datasetsOf (inputs [Call.handled m (answer H b m).2]) = ([] : List (SiemDataset P)) := by
        cases m with
        | dataset d => exact absurd ⟨d, rfl⟩ hd
        | _ => rfl
      rw [this, List.append_nil]
      exact ih

/-- A trace can be cut before any call. -/
theorem replay_cut {H : Handlers P S} {x y : S} {t : List (Call P)} (h : Replay H x t y) : ∀ {a b : List (Call P)} {c : Call P}, t = a ++ c :: b →
    ∃ z, Replay H x a z ∧ (c = .tick (H.tick z).2 ∨ ∃ m, c = .handled m (answer H z m).2) := by
  induction h with
  | none => intro a b c e; simp at e
  | tick hr ih =>
    intro a b c e
    rcases List.eq_nil_or_concat b with rfl | ⟨b', c', rfl⟩
    · obtain ⟨rfl, e2⟩ := List.append_inj' e rfl
      cases e2
      exact ⟨_, hr, .inl rfl⟩
    · rw [List.concat_eq_append, ← List.cons_append, ← List.append_assoc] at e
      exact ih (List.append_inj' e rfl).1
  | handled m hr ih =>
    intro a b c e
    rcases List.eq_nil_or_concat b with rfl | ⟨b', c', rfl⟩
    · obtain ⟨rfl, e2⟩ := List.append_inj' e rfl
      cases e2
      exact ⟨_, hr, .inr ⟨m, rfl⟩⟩
    · rw [List.concat_eq_append, ← List.cons_append, ← List.append_assoc] at e
      exact ih (List.append_inj' e rfl).1

theorem merge_datasets {tm c : List (SiemMessage P)} {tl : List SiemLog} (h : Merge (tm.filter (fun m => !IsStop m)) (tl.map .log) c) :
    datasetsOf c = datasetsOf tm := by
  have h1 : datasetsOf tm = datasetsOf (tm.filter (fun m => !IsStop m)) := by
    clear h
    induction tm with
    | nil => rfl
    | cons m tm ih =>
      by_cases hm : IsStop m = true
      · have : datasetsOf (m :: tm) = datasetsOf tm := by
          cases m with
          | dataset d => cases hm
          | _ => rfl
        rw [this, ih, List.filter_cons_of_neg (by simp [hm])]
      · rw [List.filter_cons_of_pos (by simp [hm])]
        show datasetsOf ([m] ++ tm) = datasetsOf ([m] ++ tm.filter _)
        rw [datasetsOf_append, datasetsOf_append, ih]
  rw [h1]
  generalize tm.filter (fun m => !IsStop m) = a at h
  clear h1
  generalize hb : tl.map SiemMessage.log = b at h
  induction h generalizing tl with
  | nil => rfl
  | left x _ ih =>
    rename_i a b c _
    show datasetsOf ([x] ++ c) = datasetsOf ([x] ++ a)
    rw [datasetsOf_append, datasetsOf_append, ih hb]
  | right x _ ih =>
    cases tl with
    | nil => cases hb
    | cons l tl =>
      cases hb
      exact ih rfl

/-- C90 (the latest datasets). Under every schedule, a component that keeps its datasets in a holder answers each log with the holder that has, for each
type, the last dataset of that type it was given before that log, and for the other types what it had at the start. -/
theorem C90_latest {H : Handlers P S} {view : S → DatasetHolder P} {f : DatasetHolder P → SiemLog → Except SiemError (Option SiemLog)}
    (hk : Keeps H view) (hu : AnswersWith H view f) (ls : List (LoopLabel P)) {s0 s : LoopState P (S × List (Call P))} (h0 : Started s0)
    (h : s0.run (recording H) ls = some s) {a b : List (Call P)} {l : SiemLog} {r : Except SiemError (Option SiemLog)}
    (ht : s.comp.2 = a ++ .handled (.log l) r :: b) :
    ∃ holder, Knows (view s0.comp.1) (datasetsOf (inputs a)) holder ∧ r = f holder l := by
  obtain ⟨z, hz, hc | ⟨m, hc⟩⟩ := replay_cut (C33_state H ls h0 h) ht
  · cases hc
  · injection hc with e1 e2
    subst e1
    exact ⟨view z, replay_knows hk hz, e2.trans (hu z l)⟩

/-- C90 (which datasets those are). What was handled before any call are the datasets that arrived first, in the order of arrival: none is skipped, and none comes twice. -/
theorem C90_in_order (H : Handlers P S) (ls : List (LoopLabel P)) {s0 s : LoopState P (S × List (Call P))} (h0 : Started s0)
    (h : s0.run (recording H) ls = some s) {a b : List (Call P)} (ht : s.comp.2 = a ++ b) :
    datasetsOf (inputs a) <+: datasetsOf (s0.msgs.queue ++ msgArrivals ls) := by
  obtain ⟨tm, tl, e1, _, e3, _⟩ := C33_order H ls h0 h
  have := merge_datasets e3
  rw [ht, inputs_append, datasetsOf_append] at this
  rw [← e1, datasetsOf_append, ← this, List.append_assoc]
  exact List.prefix_append _ _

/-- C90 (as new as the queue allows). A log that is taken now is answered with all the datasets that arrived so far, but for those that are still queued. -/
theorem C90_current {H : Handlers P S} {view : S → DatasetHolder P} {f : DatasetHolder P → SiemLog → Except SiemError (Option SiemLog)}
    (hk : Keeps H view) (hu : AnswersWith H view f) (ls : List (LoopLabel P)) {s0 s s' : LoopState P (S × List (Call P))} (h0 : Started s0)
    (h : s0.run (recording H) ls = some s) (ht : s.step (recording H) .takeLog = some s') :
    ∃ l q ds holder, s.logsIn.queue = l :: q ∧ ds ++ datasetsOf s.msgs.queue = datasetsOf (s0.msgs.queue ++ msgArrivals ls) ∧
      Knows (view s0.comp.1) ds holder ∧ s'.comp.2 = s.comp.2 ++ [.handled (.log l) (f holder l)] := by
  obtain ⟨tm, tl, e1, _, e3, _⟩ := C33_order H ls h0 h
  have hd := merge_datasets e3
  simp only [LoopState.step] at ht
  split at ht
  · rename_i l q hp hq
    cases ht
    refine ⟨l, q, datasetsOf tm, view s.comp.1, hq, by rw [← datasetsOf_append, e1], ?_, ?_⟩
    · rw [← hd]; exact replay_knows hk (C33_state H ls h0 h)
    · rw [← hu]
      unfold LoopState.processLog
      simp only [recording]
      rcases (H.onLog s.comp.1 l).2 with e | _ | x <;> rfl
  · cases ht

/-- C90 (the start). A component made with `SimpleComponent` starts with the datasets it was given by `set_datasets` before. -/
theorem C90_given {H : Handlers P S} {view : S → DatasetHolder P} {f : DatasetHolder P → SiemLog → Except SiemError (Option SiemLog)}
    (hk : Keeps H view) (hu : AnswersWith H view f) (comp : S) (now : Nat) (logsIn logsOut : Chan SiemLog) (ls : List (LoopLabel P))
    {s : LoopState P (S × List (Call P))} (h : (LoopState.withChannels (recording H) (comp, []) now logsIn logsOut).run (recording H) ls = some s)
    {a b : List (Call P)} {l : SiemLog} {r : Except SiemError (Option SiemLog)} (ht : s.comp.2 = a ++ .handled (.log l) r :: b) :
    datasetsOf (inputs a) <+: datasetsOf (msgArrivals ls) ∧ ∃ holder, Knows (view comp) (datasetsOf (inputs a)) holder ∧ r = f holder l := by
  refine ⟨C90_in_order H ls ⟨rfl, rfl⟩ h ht, ?_⟩
  rw [← hk.duplicate]
  exact C90_latest hk hu ls ⟨rfl, rfl⟩ h ht

theorem prepare_step {C : Type} {H : Handlers P S} {G : Setters P S C} {view : S → DatasetHolder P} (hk : Keeps H view) (hg : KeepsSetters G view)
    {c c' : SimpleComponent P S} {x : PrepareCall P C} (h : c.prepare H G x = some c') :
    view c'.component = (givenTo [x]).getLast?.getD (view c.component) ∧
    c'.channel.queue = (match x with | .duplicate => [] | _ => c.channel.queue ++ messagesOf [x]) ∧
    c'.logs = (match x with | .duplicate => none | _ => (channelsOf [x]).getLast?.or c.logs) := by
  cases x with
  | setStorage conn => cases h; exact ⟨hg.storage _ _, (List.append_nil _).symm, rfl⟩
  | setDatasets d => cases h; exact ⟨hg.datasets _ _, (List.append_nil _).symm, rfl⟩
  | setLogChannel a b => cases h; exact ⟨rfl, (List.append_nil _).symm, rfl⟩
  | message m =>
    simp only [SimpleComponent.prepare, SimpleComponent.sendMessage] at h
    split at h
    · cases h; exact ⟨rfl, rfl, rfl⟩
    · cases h
  | duplicate => cases h; exact ⟨hk.duplicate _, rfl, rfl⟩

theorem prepareAll_snoc {C : Type} {H : Handlers P S} {G : Setters P S C} (calls : List (PrepareCall P C)) (x : PrepareCall P C) : ∀ (c : SimpleComponent P S),
    c.prepareAll H G (calls ++ [x]) = (c.prepareAll H G calls).bind (fun c' => c'.prepare H G x) := by
  induction calls with
  | nil => intro c; show (c.prepare H G x).bind some = c.prepare H G x; cases c.prepare H G x <;> rfl
  | cons y ys ih =>
    intro c
    show (c.prepare H G y).bind (fun c' => c'.prepareAll H G (ys ++ [x])) = ((c.prepare H G y).bind (fun c' => c'.prepareAll H G ys)).bind _
    rw [Option.bind_assoc]
    exact congrArg _ (funext ih)

theorem since_snoc {C : Type} (calls : List (PrepareCall P C)) (x : PrepareCall P C) :
    sinceDuplicated (calls ++ [x]) = match x with | .duplicate => [] | _ => sinceDuplicated calls ++ [x] := by
  unfold sinceDuplicated
  rw [List.reverse_append]
  cases x <;> simp

/-- C90 (preparing a component): whatever was called before `run`, and however often the component was duplicated, it has the datasets given last, the
messages sent to it since the last duplication, and the log channels set last since then. -/
theorem C90_prepared {C : Type} {H : Handlers P S} {G : Setters P S C} {view : S → DatasetHolder P} (hk : Keeps H view) (hg : KeepsSetters G view)
    (comp : S) (calls : List (PrepareCall P C)) : ∀ {c : SimpleComponent P S}, (SimpleComponent.new comp).prepareAll H G calls = some c →
    view c.component = (givenTo calls).getLast?.getD (view comp) ∧ c.channel.queue = messagesOf (sinceDuplicated calls) ∧
      c.logs = (channelsOf (sinceDuplicated calls)).getLast? := by
  induction calls using snocInd with
  | nil => intro c h; cases h; exact ⟨rfl, rfl, rfl⟩
  | snoc xs x ih =>
    intro c h
    rw [prepareAll_snoc] at h
    obtain ⟨c1, h1, h2⟩ := Option.bind_eq_some_iff.1 h
    obtain ⟨a1, a2, a3⟩ := ih h1
    obtain ⟨b1, b2, b3⟩ := prepare_step hk hg h2
    have e1 : givenTo (xs ++ [x]) = givenTo xs ++ givenTo [x] := List.filterMap_append
    rw [b1, b2, b3, a1, a2, a3, e1, since_snoc]
    refine ⟨?_, ?_, ?_⟩
    · rw [List.getLast?_append]
      cases (givenTo [x]).getLast? <;> rfl
    · cases x <;> first | rfl | exact List.filterMap_append.symm
    · cases x <;> first
        | rfl
        | (show _ = (channelsOf (_ ++ _)).getLast?
           rw [show ∀ a b : List (PrepareCall P C), channelsOf (a ++ b) = channelsOf a ++ channelsOf b from fun a b => List.filterMap_append, List.getLast?_append])

/-- C90 (prepared and run): such a component handles each log with the latest datasets: those it was given last before `run`, and those it was sent since the
last duplication, before `run` or while it runs. -/
theorem C90_prepared_run {C : Type} {H : Handlers P S} {G : Setters P S C} {view : S → DatasetHolder P}
    {f : DatasetHolder P → SiemLog → Except SiemError (Option SiemLog)} (hk : Keeps H view) (hu : AnswersWith H view f) (hg : KeepsSetters G view)
    (comp : S) (calls : List (PrepareCall P C)) {c : SimpleComponent P S} (hc : (SimpleComponent.new comp).prepareAll H G calls = some c)
    (now : Nat) (ls : List (LoopLabel P)) {s : LoopState P (S × List (Call P))} (h : ((recorded c).start (recording H) now).run (recording H) ls = some s)
    {a b : List (Call P)} {l : SiemLog} {r : Except SiemError (Option SiemLog)} (ht : s.comp.2 = a ++ .handled (.log l) r :: b) :
    datasetsOf (inputs a) <+: datasetsOf (messagesOf (sinceDuplicated calls) ++ msgArrivals ls) ∧
      ∃ holder, Knows ((givenTo calls).getLast?.getD (view comp)) (datasetsOf (inputs a)) holder ∧ r = f holder l := by
  obtain ⟨p1, p2, _⟩ := C90_prepared hk hg comp calls hc
  have hs : Started ((recorded c).start (recording H) now) ∧ ((recorded c).start (recording H) now).msgs = c.channel ∧
      ((recorded c).start (recording H) now).comp.1 = H.duplicate c.component := by
    unfold SimpleComponent.start
    split <;> exact ⟨⟨rfl, rfl⟩, rfl, rfl⟩
  obtain ⟨s1, s2, s3⟩ := hs
  refine ⟨?_, ?_⟩
  · have := C90_in_order H ls s1 h ht
    rw [s2, p2] at this
    exact this
  · have := C90_latest hk hu ls s1 h ht
    rw [s3, hk.duplicate, p1] at this
    exact this

/-- C90 (wired as prepared): such a component reads its logs from the receiver that was set last since the last duplication, in order, and what it makes of them
goes to the sender set with it: what others received from there, what is queued there and the log that waits for room are what `on_log` returned, in order. -/
theorem C90_wired {C : Type} {H : Handlers P S} {G : Setters P S C} {view : S → DatasetHolder P} (hk : Keeps H view) (hg : KeepsSetters G view)
    (comp : S) (calls : List (PrepareCall P C)) {c : SimpleComponent P S} (hc : (SimpleComponent.new comp).prepareAll H G calls = some c)
    {receiver sender : Chan SiemLog} (hl : (channelsOf (sinceDuplicated calls)).getLast? = some (receiver, sender))
    (hopen : sender.connected = true) (hq : sender.queue = [])
    (now : Nat) (ls : List (LoopLabel P)) (hls : ∀ l ∈ ls, l ≠ .closeOut) {s : LoopState P (S × List (Call P))}
    (h : ((recorded c).start (recording H) now).run (recording H) ls = some s) :
    (∃ tm tl, tl ++ s.logsIn.queue = receiver.queue ++ collect (recording H) logArrival ((recorded c).start (recording H) now) ls ∧
      tm ++ s.msgs.queue = messagesOf (sinceDuplicated calls) ++ msgArrivals ls ∧
      Merge (tm.filter (fun m => !IsStop m)) (tl.map .log) (inputs s.comp.2)) ∧
    collect (recording H) consumed ((recorded c).start (recording H) now) ls ++ s.logsOut.queue ++ pending s.phase = returned s.comp.2 := by
  obtain ⟨_, p2, p3⟩ := C90_prepared hk hg comp calls hc
  rw [hl] at p3
  have hs : Started ((recorded c).start (recording H) now) ∧ ((recorded c).start (recording H) now).msgs = c.channel ∧
      ((recorded c).start (recording H) now).logsIn = receiver ∧ ((recorded c).start (recording H) now).logsOut = sender ∧
      ((recorded c).start (recording H) now).logsShared = false := by
    have e : (recorded c).start (recording H) now =
        { LoopState.withChannels (recording H) (c.component, []) now receiver sender with msgs := c.channel } := by
      unfold SimpleComponent.start
      rw [show (recorded c).logs = some (receiver, sender) from p3]
      rfl
    rw [e]
    exact ⟨⟨rfl, rfl⟩, rfl, rfl, rfl, rfl⟩
  obtain ⟨s1, s2, s3, s4, s5⟩ := hs
  refine ⟨?_, C33_no_loss H ls s1 s5 (by rw [s4]; exact hopen) (by rw [s4]; exact hq) hls h⟩
  obtain ⟨tm, tl, e1, e2, e3, _⟩ := C33_order H ls s1 h
  rw [s2, p2] at e1
  rw [s3] at e2
  exact ⟨tm, tl, e2, e1, e3⟩

/-- C90 (not wired): a component that was given no log channels since the last duplication reads what it writes, from a channel with room for one log. -/
theorem C90_not_wired {C : Type} {H : Handlers P S} {G : Setters P S C} {view : S → DatasetHolder P} (hk : Keeps H view) (hg : KeepsSetters G view)
    (comp : S) (calls : List (PrepareCall P C)) {c : SimpleComponent P S} (hc : (SimpleComponent.new comp).prepareAll H G calls = some c)
    (hl : channelsOf (sinceDuplicated calls) = []) (now : Nat) :
    (c.start H now).logsShared = true ∧ (c.start H now).logsIn.queue = [] ∧ (c.start H now).logsIn.cap = 1 := by
  obtain ⟨_, _, p3⟩ := C90_prepared hk hg comp calls hc
  rw [hl] at p3
  have e : c.start H now = { LoopState.new H c.component now with msgs := c.channel } := by
    unfold SimpleComponent.start
    rw [p3]
    rfl
  rw [e]
  exact ⟨rfl, rfl, rfl⟩

/-- C90 (the disagreement). A dataset that was sent before a log need not be known when the log is handled: the two come through different channels. -/
theorem C90_overtaken {H : Handlers P S} {view : S → DatasetHolder P} {f : DatasetHolder P → SiemLog → Except SiemError (Option SiemLog)}
    (hk : Keeps H view) (hu : AnswersWith H view f) (comp : S) (now n : Nat) (hn : 0 < n) (logsOut : Chan SiemLog) (d : SiemDataset P) (l : SiemLog)
    (ht : ∀ s e, (H.tick s).2 ≠ .error e) :
    ∃ s r, (LoopState.withChannels (recording H) (comp, []) now (Chan.bounded n) logsOut).run (recording H)
        [.first, .arriveMsg (.dataset d), .arriveLog l, .takeLog] = some s ∧
      s.comp.2 = [.tick r, .handled (.log l) (f (view comp) l)] ∧ s.msgs.queue = [.dataset d] := by
  rcases hr : (H.tick (H.duplicate comp)).2 with e | t
  · exact absurd hr (ht _ _)
  · have hf : f (view comp) l = (H.onLog (H.tick (H.duplicate comp)).1 l).2 := by rw [hu, hk.tick, hk.duplicate]
    simp only [LoopState.run, LoopState.step, LoopState.withChannels, LoopState.new, LoopState.afterTick, recording, hr, Option.bind_some, Chan.bounded,
      LoopState.processLog]
    rw [hf]
    rcases hx : (H.onLog (H.tick (H.duplicate comp)).1 l).2 with e | _ | x <;> simp [hn, hx]

/-! ### The hypotheses are met -/

namespace EnrichExample
open SimplifiedExample

/-- A component that keeps its datasets and lets logs pass only if it has a list of addresses to block. -/
def enricher : Handlers P (DatasetHolder P) where
  duplicate s := s
  onCommand s _ _ := (s, .error (.other []))
  onResponse s _ _ := (s, .error (.other []))
  onLog s l := (s, .ok (if (s.get .blockIp).isSome then some l else none))
  onDataset s d := (s.insert d, .ok ())
  onAlert s _ := (s, .error (.other []))
  onTask s _ _ := (s, .error (.other []))
  onTaskResult s _ _ := (s, .error (.other []))
  onNotification s _ := (s, .error (.other []))
  tick s := (s, .ok none)

/-- What it makes of a log. -/
def passIf (h : DatasetHolder P) (l : SiemLog) : Except SiemError (Option SiemLog) := .ok (if (h.get .blockIp).isSome then some l else none)

theorem enricher_keeps : Keeps (enricher (P := P)) id :=
  ⟨fun _ => rfl, fun _ _ => rfl, fun s m hm => by cases m <;> first | rfl | exact absurd rfl (hm _), fun _ => rfl⟩

theorem enricher_uses : AnswersWith (enricher (P := P)) id passIf := fun _ _ => rfl

/-- Its setters; it keeps no storage. -/
def setters : Setters P (DatasetHolder P) Unit := ⟨fun s _ => s, fun _ h => h⟩

theorem setters_keep : KeepsSetters (setters (P := P)) id := ⟨fun _ _ => rfl, fun _ _ => rfl⟩

/-- A message and a log channel are lost by a duplication, the datasets are not. -/
example (h : DatasetHolder P) (a b x y : Chan SiemLog) : ∃ c, (SimpleComponent.new (DatasetHolder.new : DatasetHolder P)).prepareAll enricher setters
      [.setDatasets h, .setLogChannel a b, .message SimplifiedExample.start, .duplicate, .setStorage (), .message SimplifiedExample.stop, .setLogChannel x y] = some c ∧
    c.component = h ∧ c.channel.queue = [SimplifiedExample.stop] ∧ c.logs = some (y, x) := ⟨_, rfl, rfl, rfl, rfl⟩

/-- A prepared component forwards a log from the receiver it was given to the sender it was given. -/
example : ∃ c s, (SimpleComponent.new (DatasetHolder.new : DatasetHolder (fun _ => Unit))).prepareAll enricher setters
      [.duplicate, .setDatasets (DatasetHolder.fromDatasets [.blockIp ()]), .setLogChannel (Chan.bounded 2) { cap := 3, queue := [log1], connected := true }] = some c ∧
    ((recorded c).start (recording enricher) 0).run (recording enricher) [.first, .takeLog, .flush] = some s ∧
    s.logsOut.queue = [log1] ∧ s.logsIn.queue = [] := ⟨_, _, rfl, rfl, rfl, rfl⟩

example : ∀ s e, ((enricher (P := P)).tick s).2 ≠ .error e := fun _ _ h => by cases h

/-- One log is handled before the dataset and one after it, although the dataset was sent before both. -/
def steps : List (LoopLabel (fun _ => Unit)) :=
  [.first, .arriveMsg (.dataset (.blockIp ())), .arriveMsg SimplifiedExample.start, .arriveLog log1, .arriveLog log1, .takeLog, .takeMsg, .takeLog]

example : ∃ s a, (LoopState.withChannels (recording enricher) (DatasetHolder.new, []) 0 (Chan.bounded 2) (Chan.bounded 2)).run (recording enricher) steps = some s ∧
    s.comp.2 = .tick (.ok none) :: .handled (.log log1) (.ok none) :: a ++ .handled (.log log1) (.ok (some log1)) :: [] ∧
    datasetsOf (inputs a) = [.blockIp ()] ∧ datasetsOf (msgArrivals steps) = [.blockIp ()] ∧ s.msgs.queue = [SimplifiedExample.start] :=
  ⟨_, [.handled (.dataset (.blockIp ())) (.ok none)], rfl, rfl, rfl, rfl, rfl⟩

end EnrichExample
end USiem
