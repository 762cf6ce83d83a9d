import Verif.Props.C81
import Verif.Props.C87
/-! # C88: what is heard of what comes over the cable

C75 (any arrival of the bytes) and C86, C87 (chords and melodies) taken together: from the bytes on the cable, cut and mixed with frames in
any way, to key, pitch, preset, level and sides in the registers of the chips. -/
namespace Mdmi.Props
open Mdmi Midi Session Rx
open Mdmi.Synth (keyed chipOperator wantTl)
open Mdmi.Psg (chipAtt)

/-! ### Specification -/

/-- What the messages of a cable ask for, in order. -/
def wire (l : List Piece) : List Midi.Op := l.flatMap (Piece.ops 0)

/-! ### Proofs -/

private def bare : Midi.Op → Midi.Op
  | .sysex d _ => .sysex d 0
  | op => op

private def quiet (ops : List Midi.Op) : List Midi.Op := (ops.filter (fun o => !isTick o)).map bare

private theorem quiet_append (a b : List Midi.Op) : quiet (a ++ b) = quiet a ++ quiet b := by simp [quiet]

private theorem piece_quiet (x : Piece) (j : Nat) : quiet (x.ops j) = x.ops 0 := by
  rcases x with m | b
  · cases m <;> rfl
  · rfl

private theorem start_quiet (l : List Piece) : ∀ junk, quiet (startOps junk l) = wire l := by
  induction l with
  | nil => intro junk; rfl
  | cons x l ih => intro junk; rw [startOps, quiet_append, piece_quiet, ih]; rfl

private theorem asked_quiet (start l : List Piece) (hl : .message .systemReset ∉ l) : ∀ junk, quiet (asked start junk l) = wire l := by
  induction l with
  | nil => intro junk; rfl
  | cons x l ih =>
    intro junk
    rw [asked.eq_3 _ _ _ _ (by intro k; exact hl (by simp [k])), quiet_append, piece_quiet, ih (fun k => hl (by simp [k]))]
    rfl

private theorem filter_quiet (ops : List Midi.Op) : quiet (ops.filter fun o => !isTick o) = quiet ops := by
  simp [quiet]

/-- The engine's history is what the messages ask for, with frames in between. -/
private theorem session {env : Rx.Env} {start : List Piece} (hs : StartupIs env start) {j0 : Nat → Nat} (hj0 : ∀ n, j0 n < 256)
    (b : Bool) (m : Sram.Mem) {junk : Nat → Nat → Nat} (hj : ∀ n k, junk n k < 256) (es : List Event) {l : List Piece} {tail : List Nat}
    (h : Stream (arrived es) l tail) (hr : .message .systemReset ∉ l) :
    ∃ ops, (Session.run env junk .hardware (Session.boot env j0 b m) es).sys.midi = Midi.run env.midi (Midi.boot env.midi b m) ops ∧
      quiet ops = wire (start ++ l) ∧ ∀ op ∈ ops, op.Wf := by
  obtain ⟨⟨ops, h1, h2, -⟩, -⟩ := C75_session hs j0 b m junk es h
  refine ⟨_, h1, ?_, fun op ho => ?_⟩
  · rw [quiet_append, start_quiet, ← filter_quiet ops, h2, asked_quiet start l hr]
    simp [wire]
  · rcases List.mem_append.1 ho with ho | ho
    · obtain ⟨x, hx, n, hn⟩ := mem_startOps ho
      exact piece_wf (hs.2 x hx).1 (hj0 n) op hn
    · by_cases k : isTick op = true
      · cases op <;> simp [isTick] at k <;> trivial
      · have : op ∈ ops.filter (fun o => !isTick o) := List.mem_filter.2 ⟨ho, by simpa using k⟩
        rw [h2] at this
        obtain ⟨x, hx, n, k, hn⟩ := mem_asked this
        exact piece_wf (hx.elim (h.ok x) fun hx => (hs.2 x hx).1) (hj n k) op hn

private theorem fold_quiet {β : Type} (f : β → Midi.Op → β) (ht : ∀ b op, isTick op = true → f b op = b)
    (hb : ∀ b op, f b (bare op) = f b op) (ops : List Midi.Op) : ∀ b, (quiet ops).foldl f b = ops.foldl f b := by
  induction ops with
  | nil => intro b; rfl
  | cons op ops ih =>
    intro b
    rw [show op :: ops = [op] ++ ops from rfl, quiet_append, List.foldl_append, ih, List.foldl_append]
    congr 1
    by_cases k : isTick op = true
    · simp [quiet, k, ht]
    · simp [quiet, k, hb]

private theorem keys_quiet (c : Nat) (ops : List Midi.Op) : keys c (quiet ops) = keys c ops := by
  induction ops with
  | nil => rfl
  | cons op ops ih =>
    rw [show op :: ops = [op] ++ ops from rfl, quiet_append]
    unfold keys at ih ⊢
    rw [List.filterMap_append, ih, List.filterMap_append]
    congr 1
    cases op <;> rfl

private theorem tuning_quiet (c : Nat) (ops : List Midi.Op) : tuningOf c (quiet ops) = tuningOf c ops :=
  fold_quiet _ (fun b op h => by cases op <;> simp [isTick] at h <;> rfl) (fun b op => by cases op <;> rfl) ops _

private theorem settings_quiet (c : Nat) (ops : List Midi.Op) : settingsOf c (quiet ops) = settingsOf c ops :=
  fold_quiet _ (fun b op h => by cases op <;> simp [isTick] at h <;> rfl) (fun b op => by cases op <;> rfl) ops _

private theorem velocity_quiet (ops : List Midi.Op) (c p : Nat) : velocityOf (quiet ops) c p = velocityOf ops c p :=
  fold_quiet _ (fun b op h => by cases op <;> simp [isTick] at h <;> rfl) (fun b op => by cases op <;> rfl) ops _

private theorem down_quiet (ops : List Midi.Op) : downKeys (quiet ops) = downKeys ops :=
  fold_quiet _ (fun b op h => by cases op <;> simp [isTick] at h <;> rfl) (fun b op => by cases op <;> rfl) ops _

private theorem split_quiet {ops pre post : List Midi.Op} {op : Midi.Op} (e : ops = pre ++ op :: post) (h : isTick op = false) :
    quiet ops = quiet pre ++ bare op :: quiet post := by
  rw [e, show op :: post = [op] ++ post from rfl, quiet_append, quiet_append]
  simp [quiet, h]

private theorem keys_note {c : Nat} {op : Midi.Op} (h : keys c [op] ≠ []) : isTick op = false ∧ bare op = op := by
  cases op <;> first | exact ⟨rfl, rfl⟩ | exact absurd rfl h

private theorem mem_quiet {ops : List Midi.Op} {op : Midi.Op} (h : op ∈ ops) (ht : isTick op = false) : bare op ∈ quiet ops :=
  List.mem_map.2 ⟨op, List.mem_filter.2 ⟨h, by simp [ht]⟩, rfl⟩

private theorem all_quiet {P : Midi.Op → Prop} {ops ref : List Midi.Op} (e : quiet ops = ref) (ht : ∀ op, isTick op = true → P op)
    (hb : ∀ op, P (bare op) → P op) (h : ∀ op ∈ ref, P op) : ∀ op ∈ ops, P op := by
  intro op ho
  by_cases k : isTick op = true
  · exact ht op k
  · exact hb op (h _ (e ▸ mem_quiet ho (by simpa using k)))

private theorem fine_quiet {ops ref : List Midi.Op} (e : quiet ops = ref)
    (hf : ∀ pre k v post, ref = pre ++ .cc k 85 v :: post → ∀ p w, .noteOn k p w ∉ pre) :
    ∀ pre k v post, ops = pre ++ .cc k 85 v :: post → ∀ p w, .noteOn k p w ∉ pre := by
  intro pre k v post x p w y
  exact hf (quiet pre) k v (quiet post) (e ▸ split_quiet x rfl) p w (mem_quiet y rfl)

private theorem legato_quiet {c : Nat} {ops ref : List Midi.Op} (e : quiet ops = ref) (h : Legato c ref) : Legato c ops := by
  refine ⟨fun pre p v post x => ?_, fun pre op post p x hk hl => ?_⟩
  · have := h.press (quiet pre) p v (quiet post) (e ▸ split_quiet x rfl)
    rwa [keys_quiet] at this
  · obtain ⟨k1, k2⟩ := keys_note (c := c) (op := op) (by rw [hk]; simp)
    have := h.release (quiet pre) op (quiet post) p (by rw [← e, split_quiet x k1, k2]) hk
    rw [keys_quiet] at this
    exact this hl

private theorem note_quiet {c : Nat} {ops ref : List Midi.Op} {P : List Midi.Op → Nat → Prop} (e : quiet ops = ref)
    (hP : ∀ l q, P (quiet l) q → P l q)
    (h : ∀ pre op post, ref = pre ++ op :: post → keys c [op] ≠ [] → ∀ q, lastNote (keys c (pre ++ [op])) = some q → P pre q) :
    ∀ pre op post, ops = pre ++ op :: post → keys c [op] ≠ [] → ∀ q, lastNote (keys c (pre ++ [op])) = some q → P pre q := by
  intro pre op post x hk q hq
  obtain ⟨k1, k2⟩ := keys_note hk
  refine hP pre q (h (quiet pre) op (quiet post) (by rw [← e, split_quiet x k1, k2]) hk q ?_)
  have : quiet (pre ++ [op]) = quiet pre ++ [op] := by rw [split_quiet rfl k1, k2]; rfl
  rw [← this, keys_quiet]
  exact hq

private theorem beside_quiet {c : Nat} {op : Midi.Op} (h : beside c (bare op) = true) : beside c op = true := by
  cases op <;> exact h

private theorem ordinary_quiet {d : Bool} {c : Nat} {op : Midi.Op} (h : ordinary d c (bare op)) : ordinary d c op := by
  cases op <;> exact h

private theorem loads_quiet {op : Midi.Op} (h : ¬(bare op).loadsEnvelope) : ¬op.loadsEnvelope := by
  rintro ⟨d, j, rfl, e⟩
  exact h ⟨d, 0, rfl, e⟩

private theorem tick_any {c : Nat} {d : Bool} {op : Midi.Op} (h : isTick op = true) :
    beside c op = true ∧ ordinary d c op ∧ ¬op.loadsEnvelope ∧ chordal op = true := by
  cases op <;> simp [isTick] at h
  · exact ⟨rfl, trivial, nofun, rfl⟩
  · exact ⟨rfl, trivial, nofun, rfl⟩

/-- **C88** (a melody, FM; partial).  From power-on in static mode, the bytes of a startup sequence and of the messages `l` arrive cut in any
way, with frames at any time; the last message may be incomplete.  If keys of MIDI channel `c` (1 to 6 but 3) are played legato, then at
any moment FM channel `c` of the chip is keyed on exactly if a key is down, and plays the key pressed last: in tune with the bends
and fine tune sent, with the velocity of that key, and with the last program, volume and pan of the channel.  Missing: what is missing in C87, and
system resets. -/
theorem C88_melody_partial {env : Rx.Env} (he : env.midi.Ok) (hm : env.midi.mode ≠ .dynamic) {start : List Piece} (hs : StartupIs env start)
    {j0 : Nat → Nat} (hj0 : ∀ n, j0 n < 256) (b : Bool) (m : Sram.Mem) {junk : Nat → Nat → Nat} (hj : ∀ n k, junk n k < 256)
    (hp0 : env.midi.fm.sram = true → ∀ q, Sram.loadProgram m 0 ≠ .ok q)
    (es : List Event) {l : List Piece} {tail : List Nat} (h : Stream (arrived es) l tail) (hr : .message .systemReset ∉ l)
    {c : Nat} (hc : c < 6) (h2 : c ≠ 2) (drums : Bool) (h3 : drums = true → c ≠ 3)
    (ho : ∀ op ∈ wire (start ++ l), beside c op = true ∧ ordinary drums c op)
    (hf : ∀ pre k v post, wire (start ++ l) = pre ++ .cc k 85 v :: post → ∀ p w, .noteOn k p w ∉ pre)
    (hl : Legato c (wire (start ++ l)))
    (hp : ∀ pre op post, wire (start ++ l) = pre ++ op :: post → keys c [op] ≠ [] → ∀ q, lastNote (keys c (pre ++ [op])) = some q →
      Playable (tuningOf c pre) (pitchUnder (tuningOf c pre) q 0)) :
    let s := (Session.run env junk .hardware (Session.boot env j0 b m) es).sys.midi
    let w := wire (start ++ l)
    (lastNote (keys c w) = none → keyed s.fm.synth.out c = false) ∧
    ∀ q, lastNote (keys c w) = some q → keyed s.fm.synth.out c = true ∧
      (Playable (tuningOf c w) (pitchUnder (tuningOf c w) q 0) →
        FmSounds env.midi s c (tuningOf c w) (settingsOf c w) q (velocityOf w c q)) := by
  intro s w
  obtain ⟨ops, e, eq, wf⟩ := session hs hj0 b m hj es h hr
  have k := C87_melody_partial he hm hc drums ops
    (fun op x => ⟨wf op x, all_quiet (P := fun op => beside c op = true ∧ ordinary drums c op) eq
      (fun op t => ⟨(tick_any (d := false) t).1, (tick_any (c := c) t).2.1⟩)
      (fun op y => ⟨beside_quiet y.1, ordinary_quiet y.2⟩) ho op x⟩)
    h3 b m hp0 (.inl h2) (fine_quiet eq hf) (legato_quiet eq hl)
    (note_quiet (P := fun l q => Playable (tuningOf c l) (pitchUnder (tuningOf c l) q 0)) eq (fun l q y => by rwa [tuning_quiet] at y) hp)
  rw [← keys_quiet, ← tuning_quiet, ← settings_quiet, eq, ← e] at k
  refine ⟨k.1, fun q hq => ?_⟩
  have := k.2 q hq
  rwa [← velocity_quiet, eq] at this

/-- **C88** (a melody, PSG; partial).  The same on MIDI channels 7 to 9, keys from 45 up: the chip's PSG channel has the attenuation of the key
pressed last under the channel's volume, that key's velocity and the envelope's position, and is at its pitch. -/
theorem C88_psg_melody_partial {env : Rx.Env} (he : env.midi.Ok) (hm : env.midi.mode ≠ .dynamic) {start : List Piece} (hs : StartupIs env start)
    {j0 : Nat → Nat} (hj0 : ∀ n, j0 n < 256) (b : Bool) (m : Sram.Mem) {junk : Nat → Nat → Nat} (hj : ∀ n k, junk n k < 256)
    (es : List Event) {l : List Piece} {tail : List Nat} (h : Stream (arrived es) l tail) (hr : .message .systemReset ∉ l)
    {c : Nat} (h6 : 6 ≤ c) (hc : c < 9)
    (ho : ∀ op ∈ wire (start ++ l), beside c op = true ∧ ¬op.loadsEnvelope)
    (hf : ∀ pre k v post, wire (start ++ l) = pre ++ .cc k 85 v :: post → ∀ p w, .noteOn k p w ∉ pre)
    (hl : Legato c (wire (start ++ l)))
    (hp : ∀ pre op post, wire (start ++ l) = pre ++ op :: post → keys c [op] ≠ [] → ∀ q, lastNote (keys c (pre ++ [op])) = some q →
      Playable (tuningOf c pre) (pitchUnder (tuningOf c pre) q 0) ∧ 4500 ≤ pitchUnder (tuningOf c pre) q 0) :
    let s := (Session.run env junk .hardware (Session.boot env j0 b m) es).sys.midi
    let w := wire (start ++ l)
    (s.dev c).noteOn = (lastNote (keys c w)).isSome ∧
    ∀ q, lastNote (keys c w) = some q → Playable (tuningOf c w) (pitchUnder (tuningOf c w) q 0) →
      PsgSounds env.midi s (c - 6) (tuningOf c w) (settingsOf c w) q (velocityOf w c q) := by
  intro s w
  obtain ⟨ops, e, eq, wf⟩ := session hs hj0 b m hj es h hr
  have k := C87_psg_melody_partial he hm h6 hc ops
    (fun op x => ⟨wf op x, all_quiet (P := fun op => beside c op = true ∧ ¬op.loadsEnvelope) eq
      (fun op t => ⟨(tick_any (d := false) t).1, (tick_any (c := c) (d := false) t).2.2.1⟩)
      (fun op y => ⟨beside_quiet y.1, loads_quiet y.2⟩) ho op x⟩)
    b m (fine_quiet eq hf) (legato_quiet eq hl)
    (note_quiet (P := fun l q => Playable (tuningOf c l) (pitchUnder (tuningOf c l) q 0) ∧ 4500 ≤ pitchUnder (tuningOf c l) q 0) eq
      (fun l q y => by rwa [tuning_quiet] at y) hp)
  rw [← keys_quiet, ← tuning_quiet, ← settings_quiet, eq, ← e] at k
  refine ⟨k.1, fun q hq => ?_⟩
  have := k.2 q hq
  rwa [← velocity_quiet, eq] at this

/-- **C88** (chords; partial).  From power-on in dynamic mode, with up to nine keys down at once on any MIDI channels but 10: however the bytes
arrive, every key that is down on the cable sounds on a voice of its own chip as C86 says. -/
theorem C88_chord_partial {env : Rx.Env} (he : env.midi.Ok) (hm : env.midi.mode = .dynamic) {start : List Piece} (hs : StartupIs env start)
    {j0 : Nat → Nat} (hj0 : ∀ n, j0 n < 256) (b : Bool) (m : Sram.Mem) {junk : Nat → Nat → Nat} (hj : ∀ n k, junk n k < 256)
    (hp0 : env.midi.fm.sram = true → ∀ q, Sram.loadProgram m 0 ≠ .ok q)
    (es : List Event) {l : List Piece} {tail : List Nat} (h : Stream (arrived es) l tail) (hr : .message .systemReset ∉ l)
    (hk : Keyboard (wire (start ++ l))) (ho : ∀ op ∈ wire (start ++ l), ordinary true 0 op ∧ ¬op.loadsEnvelope)
    (hf : ∀ pre k v post, wire (start ++ l) = pre ++ .cc k 85 v :: post → ∀ p w, .noteOn k p w ∉ pre)
    (hp : ∀ pre post c p v, wire (start ++ l) = pre ++ .noteOn c p v :: post →
      v = 0 ∨ Playable (tuningOf c pre) (pitchUnder (tuningOf c pre) p 0)) :
    let s := (Session.run env junk .hardware (Session.boot env j0 b m) es).sys.midi
    let w := wire (start ++ l)
    ∀ c p, (c, p) ∈ downKeys w → Playable (tuningOf c w) (pitchUnder (tuningOf c w) p 0) →
      ∃ i, (s.dev i).noteOn = true ∧ (s.dev i).midiChannel = c ∧ (s.dev i).pitch = p ∧
        (i < 6 ∧ FmSounds env.midi s i (tuningOf c w) (settingsOf c w) p (velocityOf w c p) ∨
         6 ≤ i ∧ i < 9 ∧ (StruckHigh w c p → PsgSounds env.midi s (i - 6) (tuningOf c w) (settingsOf c w) p (velocityOf w c p))) := by
  intro s w c p hd hn
  obtain ⟨ops, e, eq, wf⟩ := session hs hj0 b m hj es h hr
  have kb : Keyboard ops := by
    refine ⟨all_quiet (P := fun op => chordal op = true) eq (fun op t => (tick_any (c := 0) (d := false) t).2.2.2)
      (fun op y => by cases op <;> exact y) hk.chordal, fun pre post c p v x => ?_⟩
    have := hk.press (quiet pre) (quiet post) c p v (eq ▸ split_quiet x rfl)
    rwa [down_quiet] at this
  have sh : StruckHigh w c p → StruckHigh ops c p := fun x pre v post y => by
    have := x (quiet pre) v (quiet post) (show wire (start ++ l) = _ from eq ▸ split_quiet y rfl)
    rwa [tuning_quiet] at this
  have k := C86_chord_partial he hm ops wf kb
    (all_quiet (P := fun op => ordinary true 0 op ∧ ¬op.loadsEnvelope) eq
      (fun op t => ⟨(tick_any (c := 0) t).2.1, (tick_any (c := 0) (d := false) t).2.2.1⟩)
      (fun op y => ⟨ordinary_quiet y.1, loads_quiet y.2⟩) ho)
    b m hp0 (fine_quiet eq hf) (fun pre post c p v x => by
      have := hp (quiet pre) (quiet post) c p v (eq ▸ split_quiet x rfl)
      rwa [tuning_quiet] at this) c p
  rw [← down_quiet, ← tuning_quiet, ← settings_quiet, ← velocity_quiet, eq, ← e] at k
  obtain ⟨i, a1, a2, a3, a4⟩ := k hd hn
  exact ⟨i, a1, a2, a3, a4.imp id fun ⟨x, y, z⟩ => ⟨x, y, fun t => z (sh t)⟩⟩

/-! ### Examples -/

private def cable : List Piece :=
  [.message (.controlChange 1 7 100), .message (.noteOn 0 36 90), .message (.noteOn 1 60 127), .message .clock, .message (.noteOn 1 62 40),
   .message (.noteOff 1 60 0), .message (.noteOn 1 64 88), .message (.controlChange 1 10 127), .message (.noteOff 1 62 64),
   .message (.noteOn 0 36 0)]

private def cut : List Event :=
  [.bytes [0xB1, 7], .frame, .bytes [100, 0x90, 36, 90, 0x91, 60, 127, 0xF8, 0x91], .frame, .frame, .bytes [62], .bytes [40, 0x81, 60, 0],
   .frame, .bytes [0x91, 64, 88, 0xB1, 10, 127, 0x81, 62, 64, 0x90, 36, 0, 0x91, 50], .frame]

private def hear (env : Rx.Env) (es : List Event) : Midi.St :=
  (Session.run env (fun _ _ => 0) .hardware (Session.boot env (fun _ => 0) true Ex.mem) es).sys.midi

private theorem cut_stream : Stream (arrived cut) cable [0x91, 50] :=
  ⟨by decide +kernel, by simp [cable, Piece.Ok, Message.Ok], .noteOn 1 50 0, by simp [Message.Ok], [0], by simp, rfl⟩

/-- The last key down sounds with its own velocity and the startup's program, though the bytes come in pieces; the bass is silent. -/
example : let s := hear ⟨Ex.env .static, [0xC1, 5]⟩ cut
    let w := wire ([.message (.programChange 1 5)] ++ cable)
    lastNote (keys 1 w) = some 64 ∧ velocityOf w 1 64 = 88 ∧ settingsOf 1 w = ⟨100, 127, 5⟩ ∧
    keyed s.fm.synth.out 1 = true ∧ (s.dev 1).pitch = 64 ∧ keyed s.fm.synth.out 0 = false ∧ PannedTo 127 s.fm.synth.out 1 ∧
    (chipOperator s.fm.synth.out 1 3).totalLevel = wantTl (Ex.preset 5).algorithm (100 * 88 / 127) 3 ((Ex.preset 5).ops.get 3).totalLevel := by
  decide +kernel

/-- The hypotheses hold of it. -/
example : StartupIs ⟨Ex.env .static, [0xC1, 5]⟩ [.message (.programChange 1 5)] ∧ .message .systemReset ∉ cable ∧
    (let w := wire ([.message (.programChange 1 5)] ++ cable)
    Legato 1 w ∧ (∀ op ∈ w, beside 1 op = true ∧ ordinary true 1 op) ∧
    ∀ n, n < w.length → ∀ q, lastNote (keys 1 (w.take (n + 1))) = some q →
      Playable (tuningOf 1 (w.take n)) (pitchUnder (tuningOf 1 (w.take n)) q 0)) := by
  refine ⟨⟨rfl, by simp [Piece.Ok, Message.Ok]⟩, by simp [cable], legato_of (by decide +kernel), ?_, fun n hn q hq => ?_⟩
  · simp [wire, cable, Piece.ops, beside, ordinary]
  · have : ∀ n, n < (wire ([.message (.programChange 1 5)] ++ cable)).length →
        (match lastNote (keys 1 ((wire ([.message (.programChange 1 5)] ++ cable)).take (n + 1))) with
        | some q => decide (Playable (tuningOf 1 ((wire ([.message (.programChange 1 5)] ++ cable)).take n))
            (pitchUnder (tuningOf 1 ((wire ([.message (.programChange 1 5)] ++ cable)).take n)) q 0))
        | none => true) = true := by decide +kernel
    have := this n hn
    rw [hq] at this
    simpa using this

/-- The same cable in dynamic mode: it is keyboard playing, and the key down sounds on one FM channel, alone. -/
example : Keyboard (wire ([] ++ cable)) ∧ downKeys (wire ([] ++ cable)) = [(1, 64)] ∧
    (let s := hear ⟨Ex.env .dynamic, []⟩ cut
    (List.range 6).filter (keyed s.fm.synth.out) = [1] ∧ ((s.dev 1).midiChannel, (s.dev 1).pitch) = (1, 64) ∧ (s.fm.ch 1).velocity = 88 ∧
    PannedTo 127 s.fm.synth.out 1) :=
  ⟨keyboard_of (by decide +kernel) (by decide +kernel), by decide +kernel, by decide +kernel⟩

private def pipe : List Piece :=
  [.message (.controlChange 7 7 100), .message (.noteOn 7 60 127), .message (.noteOn 7 64 88), .message (.noteOff 7 60 0)]

/-- A PSG voice, with the attenuation of the key pressed last. -/
example : Stream (arrived [.bytes [0xB7, 7, 100, 0x97], .frame, .bytes [60, 127, 0x97, 64, 88, 0x87, 60], .frame, .bytes [0]]) pipe [] ∧
    Legato 7 (wire ([] ++ pipe)) ∧
    (let s := hear ⟨Ex.env .static, []⟩ [.bytes [0xB7, 7, 100, 0x97], .frame, .bytes [60, 127, 0x97, 64, 88, 0x87, 60], .frame, .bytes [0]]
    (s.dev 7).noteOn = true ∧ ∃ e, Psg.deref (Ex.env .static).psg s.psg.userBuf (s.psg.ch 1).step = some e ∧
    chipAtt s.psg.out 1 = heardAttenuation (Ex.env .static).psg 100 88 e ∧ chipAtt s.psg.out 1 < 15) :=
  ⟨⟨by decide +kernel, by simp [pipe, Piece.Ok, Message.Ok], .noteOn 7 60 1, by simp [Message.Ok], [0x97, 60, 1], by simp, rfl⟩,
    legato_of (by decide +kernel), by decide +kernel, 2, by decide +kernel⟩

end Mdmi.Props
