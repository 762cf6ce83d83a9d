import Verif.Proofs.MidiFmRun
import Verif.Proofs.MidiFmSram
import Verif.Spec.Example
/-! C32: storing, dumping and clearing programs by system exclusive message. -/
namespace Mdmi.Props
open Mdmi Mdmi.Midi
open Mdmi.Synth (FmPreset Operator chipChannel)

/-- How many values each parameter byte of a program message can take: algorithm, feedback, AMS, FMS, then for each
operator multiple, detune, attack rate, rate scaling, decay rate, AM, sustain level, sustain rate, release rate, total
level and SSG-EG (the widths of the YM2612's fields). -/
def parameterRanges : List Nat :=
  let oper := [16, 8, 32, 4, 32, 2, 16, 32, 16, 128, 16]
  [8, 8, 4, 8] ++ oper ++ oper ++ oper ++ oper

/-- Parameter bytes cut to the widths of their fields. -/
def masked (ps : List Nat) : List Nat := List.zipWith (· % ·) ps parameterRanges

/-- The 48 parameter bytes of a preset. -/
def presetBytes (q : FmPreset) : List Nat :=
  let oper (o : Operator) := [o.multiple, o.detune, o.attackRate, o.rateScaling, o.decayRate, o.am, o.sustainLevel,
    o.sustainRate, o.releaseRate, o.totalLevel, o.ssgEg]
  [q.algorithm, q.feedback, q.ams, q.fms] ++ oper q.ops.o0 ++ oper q.ops.o1 ++ oper q.ops.o2 ++ oper q.ops.o3

/-- The message that stores parameter bytes as program `n`, the ones that clear program `n` or all programs, the
requests to dump program `n` and the sound of MIDI channel `c`, as documented in the wiki of the project. -/
def storeMsg (n : Nat) (ps : List Nat) : Op := .sysex ([0x00, 0x22, 0x77, 0x0A, 0, n] ++ ps) 0
def clearMsg (n : Nat) : Op := .sysex [0x00, 0x22, 0x77, 0x0B, 0, n] 0
def clearAllMsg : Op := .sysex [0x00, 0x22, 0x77, 0x0C, 0] 0
def dumpMsg (n : Nat) : Op := .sysex [0x00, 0x22, 0x77, 0x0D, 0, n] 0
def dumpChannelMsg (c : Nat) : Op := .sysex [0x00, 0x22, 0x77, 0x0F, 0, c] 0

/-- The engine answers the message `op` in state `s` with exactly one transmission, `bytes`. -/
def Replies (env : Env) (s : St) (op : Op) (bytes : List Nat) : Prop :=
  (step env s op).out = .tx bytes :: s.out

/-- The reply to a dump request of program `n` with parameters `ps`. -/
def presetReply (n : Nat) (ps : List Nat) : List Nat := [0xF0, 0x00, 0x22, 0x77, 0x0E, 0, n] ++ ps ++ [0xF7]

variable {env : Env} {s t : St}

private theorem dump_replies {n : Nat} {q : FmPreset} (h : Fm.getStoredPreset env.fm s.fm n = some q) :
    Replies env s (dumpMsg n) (presetReply n (presetBytes q)) := by
  simp only [Replies, dumpMsg, step]
  simp only [sysex, List.length_cons, List.length_nil, List.take_succ_cons, List.take_zero, List.getD_cons_succ,
    List.getD_cons_zero, List.drop_succ_cons, List.drop_zero, commandLength, handler, dumpPreset, h]
  simp [sendPresetDump, sendSysex, emit, say, presetReply, presetBytes, operBytes]

private theorem spread {ps : List Nat} (hl : ps.length = 48) : ps = (List.range 48).map (ps.getD · 0) := by
  refine List.ext_getElem (by simp [hl]) fun i h1 h2 => ?_
  simp [List.getElem?_eq_getElem h1]

private theorem masked_eq {n : Nat} {ps : List Nat} (hl : ps.length = 48) :
    presetBytes (presetOf (0 :: n :: ps)) = masked ps := by
  unfold masked
  conv => rhs; rw [spread hl]
  rfl

private theorem store_fm {n : Nat} {ps : List Nat} (hl : ps.length = 48) :
    (step env s (storeMsg n ps)).fm = Fm.storePreset env.fm s.fm n (presetOf (0 :: n :: ps)) := by
  simp only [storeMsg, step]
  simp [sysex, commandLength, handler, storeProgram, hl, fmCall, say, Fm.step]

private theorem clear_fm {n : Nat} : (step env s (clearMsg n)).fm = Fm.clearPreset env.fm s.fm n := by
  simp only [clearMsg, step]
  simp [sysex, commandLength, handler, clearProgram, fmCall, say, Fm.step]

private theorem clearAll_fm : (step env s clearAllMsg).fm =
    (List.range 128).foldl (fun f n => Fm.clearPreset env.fm f n) s.fm := by
  simp only [clearAllMsg, step]
  simp only [sysex, List.length_cons, List.length_nil, List.take_succ_cons, List.take_zero, List.getD_cons_succ,
    List.getD_cons_zero, List.drop_succ_cons, List.drop_zero, commandLength, handler, clearAll, say]
  rw [if_neg (by decide), if_neg (by decide), if_neg (by decide), if_neg (by decide), if_pos trivial]
  have : ∀ (l : List Nat) (s : St), (l.foldl (fun s n => fmCall env s (.clear n)) s).fm =
      l.foldl (fun f n => Fm.clearPreset env.fm f n) s.fm := by
    intro l
    induction l with
    | nil => intro s; rfl
    | cons a l ih => intro s; exact ih _
  exact this _ s

private theorem save_user (f : Fm.St) (n : Nat) (q : FmPreset) : (Fm.sramSave env.fm f n q).user = f.user := by
  simp only [Fm.sramSave, Fm.sramDisable]; split
  · rfl
  · split <;> rfl

private theorem wipe_user (f : Fm.St) (n : Nat) : (Fm.sramClear env.fm f n).user = f.user := by
  simp only [Fm.sramClear, Fm.sramDisable]; split
  · rfl
  · split <;> rfl

private theorem store_user (f : Fm.St) {n : Nat} (hn : n < 128) (q : FmPreset) :
    (Fm.storePreset env.fm f n q).user = upd f.user n (some q) := by
  rw [Fm.storePreset, if_pos hn, save_user]

private theorem clear_user (f : Fm.St) {n : Nat} (hn : n < 128) :
    (Fm.clearPreset env.fm f n).user = upd f.user n none := by
  rw [Fm.clearPreset, if_pos hn, wipe_user]

private theorem clearAll_user (l : List Nat) (hl : ∀ k ∈ l, k < 128) (f : Fm.St) (n : Nat) :
    (l.foldl (fun f n => Fm.clearPreset env.fm f n) f).user n = if n ∈ l then none else f.user n := by
  induction l generalizing f with
  | nil => simp
  | cons a l ih =>
    rw [List.foldl_cons, ih (fun k hk => hl k (by simp [hk])), clear_user f (hl a (by simp))]
    by_cases h : n = a
    · subst h; simp
    · simp [h, Psg.upd_other _ _ _ _ h]

/-- A call that does not write program `n` keeps it, resets aside. -/
private theorem step_user (f : Fm.St) {n : Nat} {o : Fm.Op} (hl : o.Legal) (hw : ¬o.writes n) (hr : o ≠ .reset) :
    (Fm.step env.fm f o).user n = f.user n := by
  by_cases h : ∀ k, ¬o.writes k
  · rw [(Fm.step_keeps f o h hr).2]
  · cases o with
    | store k q =>
      simp only [Fm.step]; rw [store_user f hl.1]; exact Psg.upd_other _ _ _ _ (Ne.symm hw)
    | clear k => simp only [Fm.step]; rw [clear_user f hl]; exact Psg.upd_other _ _ _ _ (Ne.symm hw)
    | storeFrom c k =>
      simp only [Fm.step, Fm.storePresetFromChannel, Fm.guardCh]
      rw [if_pos hl.1, store_user f hl.2]; exact Psg.upd_other _ _ _ _ (Ne.symm hw)
    | _ => exact absurd (fun k hk => hk) h

private theorem run_user (n : Nat) (l : List Fm.Op) : ∀ f : Fm.St, (∀ o ∈ l, o.Legal ∧ ¬o.writes n ∧ o ≠ .reset) →
    (Fm.run env.fm f l).user n = f.user n := by
  induction l with
  | nil => intro f _; rfl
  | cons o l ih =>
    intro f h
    have ho := h o (by simp)
    exact (ih _ fun x hx => h x (by simp [hx])).trans (step_user f ho.1 ho.2.1 ho.2.2)

private theorem makes_writes {op : Op} {o : Fm.Op} {n : Nat} (h : op.makes o) (hn : ¬op.stores n) : ¬o.writes n := by
  intro hw
  cases o with
  | store k q => cases hw; exact hn h
  | clear k => cases hw; exact hn h
  | storeFrom c k => cases hw; exact hn h
  | _ => exact hw

private theorem makes_reset {op : Op} (h : op.makes .reset) : op = .reset := h

/-- What program `n` holds right after a message is still there after any later messages that do not write it. -/
private theorem later_user (he : env.Ok) (b : Bool) (m : Sram.Mem) (pre post : List Op)
    (hw : ∀ op ∈ pre ++ post, op.Wf)
    (hd : (∀ op ∈ pre ++ post, ¬op.enablesDac) ∨ (∀ op ∈ pre ++ post, ¬op.detunes)) {n : Nat} (hn : n < 128)
    (hs : ∀ op ∈ post, ¬op.stores n) (hr : env.fm.sram = true ∨ .reset ∉ post) :
    (run env (boot env b m) (pre ++ post)).fm.user n = (run env (boot env b m) pre).fm.user n := by
  have hd1 : (∀ op ∈ pre, ¬op.enablesDac) ∨ (∀ op ∈ pre, ¬op.detunes) :=
    hd.imp (fun h o ho => h o (by simp [ho])) (fun h o ho => h o (by simp [ho]))
  have hw1 : ∀ op ∈ pre, op.Wf := fun o ho => hw o (by simp [ho])
  obtain ⟨l0, h0, e0⟩ := history_fmBy he b m pre hw1 hd1
  obtain ⟨tame, ok, k1, k2⟩ : ∃ tame, Ok env tame (run env (boot env b m) pre) ∧
      (tame = false → ∀ op ∈ post, ¬op.enablesDac) ∧ (tame = true → ∀ op ∈ post, ¬op.detunes) := by
    rcases hd with h | h
    · exact ⟨false, run_ok he pre _ (boot_ok he b m) hw1 (fun _ o ho => h o (by simp [ho])) (by simp),
        fun _ o ho => h o (by simp [ho]), by simp⟩
    · exact ⟨true, run_ok he pre _ (boot_ok he b m) hw1 (by simp) (fun _ o ho => h o (by simp [ho])),
        by simp, fun _ o ho => h o (by simp [ho])⟩
  obtain ⟨l, h1, e1⟩ := run_fmBy he post _ ok (fun o ho => hw o (by simp [ho])) k1 k2
  rw [show run env (boot env b m) (pre ++ post) = run env (run env (boot env b m) pre) post by
    simp [run, List.foldl_append], e1]
  have hwr : ∀ o ∈ l, ¬o.writes n := by
    intro o ho
    obtain ⟨op, hop, hm⟩ := (h1 o ho).1
    exact makes_writes hm (hs op hop)
  rcases hr with hr | hr
  · have hb := Fm.boot_ok he.fm b m
    have m0 := (Fm.boot_mirror he.fm hr b m).run he.fm hr hb.1 l0 fun o ho => (h0 o ho).2
    rw [← e0] at m0
    have m1 := m0.run he.fm hr ok.fm l fun o ho => (h1 o ho).2
    rw [m1 n hn, m0 n hn, Fm.run_held he.fm hr ok.fm l (fun o ho => (h1 o ho).2) hwr]
  · refine run_user n l _ fun o ho => ⟨(h1 o ho).2, hwr o ho, ?_⟩
    rintro rfl
    obtain ⟨op, hop, hm⟩ := (h1 _ ho).1
    exact hr (makes_reset hm ▸ hop)

/-- **C32** (store, then dump).  A program stored by system exclusive message and not stored or cleared since is what a
dump request returns: exactly the parameter bytes that were sent, each cut to the width of its field, in one message.
Any other messages may come between, and system resets too when the cartridge has SRAM. -/
theorem C32_store_then_dump (env : Env) (he : env.Ok) (b : Bool) (m : Sram.Mem) (pre post : List Op) (n : Nat)
    (ps : List Nat) (hn : n < 128) (hl : ps.length = 48)
    (hw : ∀ op ∈ pre ++ storeMsg n ps :: post, op.Wf)
    (hd : (∀ op ∈ pre ++ post, ¬op.enablesDac) ∨ (∀ op ∈ pre ++ post, ¬op.detunes))
    (hs : ∀ op ∈ post, ¬op.stores n) (hr : env.fm.sram = true ∨ .reset ∉ post) :
    Replies env (run env (boot env b m) (pre ++ storeMsg n ps :: post)) (dumpMsg n) (presetReply n (masked ps)) := by
  rw [← masked_eq (n := n) hl]
  apply dump_replies
  rw [show pre ++ storeMsg n ps :: post = (pre ++ [storeMsg n ps]) ++ post by simp] at hw ⊢
  have k := later_user he b m (pre ++ [storeMsg n ps]) post hw
    (hd.imp (fun h o ho => ?_) (fun h o ho => ?_)) hn hs hr
  · rw [Fm.getStoredPreset, if_neg (by omega), k, run, List.foldl_append]
    simp only [List.foldl_cons, List.foldl_nil]
    rw [store_fm hl, store_user _ hn]
    simp
  all_goals
    simp only [List.mem_append, List.mem_singleton] at ho
    rcases ho with (ho | rfl) | ho
    · exact h o (by simp [ho])
    · simp [storeMsg, Op.enablesDac, Op.detunes]
    · exact h o (by simp [ho])

/-- **C32** (clear).  After a program was cleared, alone or with all the others, and not stored since, a dump request
returns the built-in preset. -/
theorem C32_clear_then_dump (env : Env) (he : env.Ok) (b : Bool) (m : Sram.Mem) (pre post : List Op) (n : Nat)
    (op : Op) (ho : op = clearMsg n ∨ op = clearAllMsg) (q : FmPreset) (hq : env.fm.presets[n]? = some q) (hn : n < 128)
    (hw : ∀ o ∈ pre ++ post, o.Wf)
    (hd : (∀ o ∈ pre ++ post, ¬o.enablesDac) ∨ (∀ o ∈ pre ++ post, ¬o.detunes))
    (hs : ∀ o ∈ post, ¬o.stores n) (hr : env.fm.sram = true ∨ .reset ∉ post) :
    Replies env (run env (boot env b m) (pre ++ op :: post)) (dumpMsg n) (presetReply n (presetBytes q)) := by
  apply dump_replies
  rw [show pre ++ op :: post = (pre ++ [op]) ++ post by simp]
  have hop : op.Wf ∧ ¬op.enablesDac ∧ ¬op.detunes := by
    rcases ho with rfl | rfl <;> simp [clearMsg, clearAllMsg, Op.Wf, Op.enablesDac, Op.detunes, hn]
  have k := later_user he b m (pre ++ [op]) post (fun o ho => ?_)
    (hd.imp (fun h o ho => ?_) (fun h o ho => ?_)) hn hs hr
  · rw [Fm.getStoredPreset, if_neg (by omega), k, run, List.foldl_append]
    simp only [List.foldl_cons, List.foldl_nil]
    rcases ho with rfl | rfl
    · rw [clear_fm, clear_user _ hn]
      simp [hq]
    · rw [clearAll_fm, clearAll_user _ (fun k hk => by simpa using hk), if_pos (by simpa using hn)]
      simp [hq]
  all_goals
    simp only [List.mem_append, List.mem_singleton] at ho
    rcases ho with (ho | rfl) | ho
    · first | exact h o (by simp [ho]) | exact hw o (by simp [ho])
    · first | exact hop.1 | exact hop.2.1 | exact hop.2.2
    · first | exact h o (by simp [ho]) | exact hw o (by simp [ho])

/-- **C32** (others).  Storing or clearing a program changes no other program's dump: whatever the engine replied for
`k` before, it replies after. -/
theorem C32_other_programs (env : Env) (he : env.Ok) (s : St) (n k : Nat) (hn : n < 128) (hk : k < 128) (hne : k ≠ n)
    (ps : List Nat) (hl : ps.length = 48) (op : Op) (ho : op = clearMsg n ∨ op = storeMsg n ps) :
    ∃ q, Replies env s (dumpMsg k) (presetReply k (presetBytes q)) ∧
      Replies env (step env s op) (dumpMsg k) (presetReply k (presetBytes q)) := by
  obtain ⟨q, hq, -⟩ := Fm.presetOf he.fm (n := k) hk
  have e : (step env s op).fm.user k = s.fm.user k := by
    rcases ho with rfl | rfl
    · rw [clear_fm, clear_user _ hn]; exact Psg.upd_other _ _ _ _ hne
    · rw [store_fm hl, store_user _ hn]; exact Psg.upd_other _ _ _ _ hne
  refine ⟨(s.fm.user k).getD q, dump_replies ?_, dump_replies ?_⟩
  all_goals
    rw [Fm.getStoredPreset, if_neg (by omega)]
    try rw [e]
    cases s.fm.user k <;> simp [hq]

/-- **C32** (channel dump).  Without raw register writes before, the reply to a channel dump request for a MIDI channel
whose first voice is FM is one message with a preset whose algorithm, feedback, sensitivities and operator settings are
the ones on the chip; stored as a program, it is what a dump of that program returns. -/
theorem C32_channel_dump (env : Env) (he : env.Ok) (s : St) (hs : Clean env s) (c i : Nat) (hc : c < 16) (hi : i < 6)
    (hm : (s.dev i).midiChannel = c) (hf : (s.dev i).ops = .fm) (h1 : ∀ j < i, (s.dev j).midiChannel ≠ c) :
    ∃ q : FmPreset, Replies env s (dumpChannelMsg c)
        ([0xF0, 0x00, 0x22, 0x77, 0x10, 0, c] ++ presetBytes q ++ [0xF7]) ∧
      (chipChannel s.fm.synth.out i).timbre =
        (⟨q.algorithm, q.feedback, (chipChannel s.fm.synth.out i).stereo, q.ams, q.fms, 0, 0, q.ops⟩ :
          Synth.FmChannel).timbre ∧
      ∀ n < 128, Replies env (step env s (storeMsg n (presetBytes q))) (dumpMsg n) (presetReply n (presetBytes q)) := by
  obtain ⟨tame, ok⟩ := hs.reached.ok he
  have hd : devByMidi s c = some i := by
    unfold devByMidi
    rw [List.find?_range_eq_some]
    exact ⟨by simpa using hm, by simp; omega, fun j hj => by simpa using h1 j hj⟩
  have hnum : (s.dev i).num = i := by
    rw [(ok.dev i (by omega)).num, chipNum, if_pos (by omega)]
  have sy := (hs.inv he).ch i hi
  refine ⟨Synth.extractPreset s.fm.synth i, ?_, ?_, fun n hn => ?_⟩
  · simp only [Replies, dumpChannelMsg, step]
    simp only [sysex, List.length_cons, List.length_nil, List.take_succ_cons, List.take_zero, List.getD_cons_succ,
      List.getD_cons_zero, List.drop_succ_cons, List.drop_zero, commandLength, handler, dumpChannel]
    rw [if_neg (by decide), if_neg (by decide), if_neg (by decide), if_neg (by decide), if_neg (by omega), if_pos trivial, hd]
    simp only [hf, if_true, hnum]
    simp [sendPresetDump, sendSysex, emit, say, presetBytes, operBytes]
  · have e := sy.chip
    have e' := congrArg Synth.FmChannel.stereo e
    simp only [Synth.FmChannel.timbre] at e'
    rw [e, e']
    rfl
  · have ok' : (Synth.extractPreset s.fm.synth i).Ok := Fm.extract_ok sy.ok
    have hm : masked (presetBytes (Synth.extractPreset s.fm.synth i)) =
        presetBytes (Synth.extractPreset s.fm.synth i) := by
      generalize Synth.extractPreset s.fm.synth i = q at ok'
      obtain ⟨a, f, m, p, ⟨o0, o1, o2, o3⟩⟩ := ok'
      simp only [masked, presetBytes, parameterRanges, List.cons_append, List.nil_append, List.zipWith_cons_cons,
        List.zipWith_nil_right]
      simp only [Nat.mod_eq_of_lt a, Nat.mod_eq_of_lt f, Nat.mod_eq_of_lt m, Nat.mod_eq_of_lt p]
      have oo : ∀ o : Operator, o.Ok → o.multiple % 16 = o.multiple ∧ o.detune % 8 = o.detune ∧
          o.attackRate % 32 = o.attackRate ∧ o.rateScaling % 4 = o.rateScaling ∧ o.decayRate % 32 = o.decayRate ∧
          o.am % 2 = o.am ∧ o.sustainLevel % 16 = o.sustainLevel ∧ o.sustainRate % 32 = o.sustainRate ∧
          o.releaseRate % 16 = o.releaseRate ∧ o.totalLevel % 128 = o.totalLevel ∧ o.ssgEg % 16 = o.ssgEg := by
        intro o h
        obtain ⟨a, b, c, d, e, f, g, h, i, j, k⟩ := h
        refine ⟨?_, ?_, ?_, ?_, ?_, ?_, ?_, ?_, ?_, ?_, ?_⟩ <;> apply Nat.mod_eq_of_lt <;> assumption
      simp [oo _ o0, oo _ o1, oo _ o2, oo _ o3]
    have hl : (presetBytes (Synth.extractPreset s.fm.synth i)).length = 48 := by simp [presetBytes]
    generalize presetBytes (Synth.extractPreset s.fm.synth i) = ps at hm hl ⊢
    conv => rhs; rw [← hm]
    rw [← masked_eq (n := n) hl]
    apply dump_replies
    rw [Fm.getStoredPreset, if_neg (by omega), store_fm hl, store_user _ hn]
    simp

private theorem cc87_fm (c n : Nat) (hc : c < 16) :
    (step env s (.cc c 87 n)).fm = match (List.range 13).find? fun i => (s.dev i).midiChannel == c && (s.dev i).ops == .fm with
      | some i => Fm.storePresetFromChannel env.fm s.fm (s.dev i).num n
      | none => s.fm := by
  have e : step env s (.cc c 87 n) = emit (storeFromChannel env s c n) (.changedCc c 87 n) := by
    rw [show step env s (.cc c 87 n) = if c < 16 then cc env s c 87 n else ub s from rfl, if_pos hc]
    rfl
  rw [e]
  unfold emit storeFromChannel
  generalize ((List.range 13).find? fun i => (s.dev i).midiChannel == c && (s.dev i).ops == .fm) = o
  cases o <;> rfl

/-- **C32** (stored from a channel).  Controller 87 stores what the chip has for the first FM voice of the MIDI channel (voices
of other kinds, the special-mode and sample voices among them, are passed over): a later dump of the program returns
that algorithm, feedback, those sensitivities and operator settings, until it is stored again or cleared. -/
theorem C32_controller_stores (env : Env) (he : env.Ok) (b : Bool) (m : Sram.Mem) (pre post : List Op) (c n i : Nat)
    (hn : n < 128) (hw : ∀ op ∈ pre ++ .cc c 87 n :: post, op.Wf) (hraw : ∀ op ∈ pre, ¬op.raw)
    (hd : (∀ op ∈ pre ++ post, ¬op.enablesDac) ∨ (∀ op ∈ pre ++ post, ¬op.detunes))
    (hs : ∀ op ∈ post, ¬op.stores n) (hr : env.fm.sram = true ∨ .reset ∉ post) (hi : i < 6) :
    let s := run env (boot env b m) pre
    (s.dev i).midiChannel = c → (s.dev i).ops = .fm → (∀ j < i, (s.dev j).midiChannel = c → (s.dev j).ops ≠ .fm) →
    ∃ q : FmPreset, Replies env (run env (boot env b m) (pre ++ .cc c 87 n :: post)) (dumpMsg n) (presetReply n (presetBytes q)) ∧
      (chipChannel s.fm.synth.out i).timbre =
        (⟨q.algorithm, q.feedback, (chipChannel s.fm.synth.out i).stereo, q.ams, q.fms, 0, 0, q.ops⟩ :
          Synth.FmChannel).timbre := by
  intro s hm hf h1
  have hc : c < 16 := (hw (.cc c 87 n) (by simp)).1
  have cl : Clean env s := ⟨b, m, pre, fun o ho => ⟨hw o (by simp [ho]), hraw o ho⟩,
    hd.imp (fun h o ho => h o (by simp [ho])) (fun h o ho => h o (by simp [ho])), rfl⟩
  obtain ⟨tame, ok⟩ := cl.reached.ok he
  have hnum : (s.dev i).num = i := by
    rw [(ok.dev i (by omega)).num, chipNum, if_pos (by omega)]
  have sy := (cl.inv he).ch i hi
  have hfind : ((List.range 13).find? fun i => (s.dev i).midiChannel == c && (s.dev i).ops == .fm) = some i := by
    rw [List.find?_range_eq_some]
    refine ⟨by simp [hm, hf], by simp; omega, fun j hj => ?_⟩
    by_cases x : (s.dev j).midiChannel = c
    · simp [h1 j hj x]
    · simp [x]
  refine ⟨Synth.extractPreset s.fm.synth i, ?_, ?_⟩
  · apply dump_replies
    rw [show pre ++ .cc c 87 n :: post = (pre ++ [.cc c 87 n]) ++ post by simp] at hw ⊢
    have k := later_user he b m (pre ++ [.cc c 87 n]) post hw
      (hd.imp (fun h o ho => ?_) (fun h o ho => ?_)) hn hs hr
    · rw [Fm.getStoredPreset, if_neg (by omega), k, run, List.foldl_append]
      simp only [List.foldl_cons, List.foldl_nil]
      change (match (step env s (.cc c 87 n)).fm.user n with | some p => some p | none => _) = _
      rw [cc87_fm c n hc, hfind]
      simp only [hnum, Fm.storePresetFromChannel, Fm.guardCh, if_pos hi]
      rw [store_user _ hn]
      simp
    all_goals
      simp only [List.mem_append, List.mem_singleton] at ho
      rcases ho with (ho | rfl) | ho
      · exact h o (by simp [ho])
      · simp [Op.enablesDac, Op.detunes]
      · exact h o (by simp [ho])
  · have e := sy.chip
    have e' := congrArg Synth.FmChannel.stereo e
    simp only [Synth.FmChannel.timbre] at e'
    rw [e, e']
    rfl

/-- **C32** (nothing to store).  On a MIDI channel without an FM voice controller 87 stores nothing. -/
theorem C32_controller_stores_nothing (env : Env) (s : St) (c n : Nat) (hc : c < 16)
    (h : ∀ i < 13, (s.dev i).midiChannel = c → (s.dev i).ops ≠ .fm) : (step env s (.cc c 87 n)).fm = s.fm := by
  rw [cc87_fm c n hc, show ((List.range 13).find? fun i => (s.dev i).midiChannel == c && (s.dev i).ops == .fm) = none by
    rw [List.find?_eq_none]
    intro i hi
    have := h i (List.mem_range.1 hi)
    simpa using this]

/-- A special-mode voice shares MIDI channel 12 with FM voice 2, which is stored; alone it is not; and then the program is
played elsewhere. -/
example : let e := Ex.env .static
    let s := Ex.after .static [.program 1 9, .remap 11 1]
    let t := run e s [.cc 11 87 40, .noteOn 0 60 100, .program 0 40]
    (s.dev 11).midiChannel = 11 ∧ (s.dev 11).ops ≠ .fm ∧ (s.dev 1).midiChannel = 11 ∧ (s.dev 1).ops = .fm ∧
    (chipChannel s.fm.synth.out 1).algorithm = (Ex.preset 9).algorithm ∧ t.fm.user 40 = some (Ex.preset 9) ∧
    (step e t (dumpMsg 40)).out = .tx (presetReply 40 (presetBytes (Ex.preset 9))) :: t.out ∧
    (Ex.after .static [.cc 11 87 40]).fm.user 40 = none ∧ (chipChannel t.fm.synth.out 0).algorithm = (Ex.preset 9).algorithm := by
  decide +kernel

/-- The engine turns the message `op` away: a line in the log, nothing sent, nothing else changed. -/
def Refuses (env : Env) (s : St) (op : Op) (line : Msg) : Prop := step env s op = { s with log := line :: s.log }

/-- **C32** (types).  All five messages name the kind of preset; any kind but 0 (FM) is turned away, with a line that says so,
whatever program, parameters or (existing) MIDI channel the message goes on with. -/
theorem C32_other_types_refused (env : Env) (s : St) (j ty n : Nat) (ps : List Nat) (hl : ps.length = 48) (ht : ty ≠ 0) :
    Refuses env s (.sysex ([0x00, 0x22, 0x77, 0x0A, ty, n] ++ ps) j) (.badType ty) ∧
    Refuses env s (.sysex [0x00, 0x22, 0x77, 0x0B, ty, n] j) (.badType ty) ∧
    Refuses env s (.sysex [0x00, 0x22, 0x77, 0x0C, ty] j) (.badType ty) ∧
    Refuses env s (.sysex [0x00, 0x22, 0x77, 0x0D, ty, n] j) (.badType ty) ∧
    (n < 16 → Refuses env s (.sysex [0x00, 0x22, 0x77, 0x0F, ty, n] j) (.badType ty)) := by
  refine ⟨?_, ?_, ?_, ?_, fun hn => ?_⟩ <;> simp only [Refuses, step] <;>
    simp [sysex, commandLength, handler, storeProgram, clearProgram, clearAll, dumpPreset, dumpChannel, hl, ht, say]
  omega

/-- **C32** (channels).  A dump of a MIDI channel above 16, of whatever type, and of a MIDI channel without a voice, or whose
first voice is not FM, is turned away, each with its own line. -/
theorem C32_channel_dump_refused (env : Env) (s : St) (j ty c : Nat) :
    (16 ≤ c → Refuses env s (.sysex [0x00, 0x22, 0x77, 0x0F, ty, c] j) (.badMidiChannel c)) ∧
    (c < 16 → (∀ i < 13, (s.dev i).midiChannel ≠ c) → Refuses env s (.sysex [0x00, 0x22, 0x77, 0x0F, 0, c] j) (.noFm c)) ∧
    (∀ i, c < 16 → i < 13 → (s.dev i).midiChannel = c → (∀ k < i, (s.dev k).midiChannel ≠ c) → (s.dev i).ops ≠ .fm →
      Refuses env s (.sysex [0x00, 0x22, 0x77, 0x0F, 0, c] j) (.noFm c)) := by
  refine ⟨fun h => ?_, fun h k => ?_, fun i h hi h1 h2 h3 => ?_⟩ <;> simp only [Refuses, step]
  · simp [sysex, commandLength, handler, dumpChannel, h, say]
  · have e : devByMidi s c = none := by
      unfold devByMidi
      rw [List.find?_eq_none]
      intro i hi
      simpa using k i (List.mem_range.1 hi)
    have h' : ¬16 ≤ c := by omega
    simp [sysex, commandLength, handler, dumpChannel, h', e, say]
  · have e : devByMidi s c = some i := by
      unfold devByMidi
      rw [List.find?_range_eq_some]
      exact ⟨by simpa using h1, by simp; omega, fun j hj => by simpa using h2 j hj⟩
    have h' : ¬16 ≤ c := by omega
    simp [sysex, commandLength, handler, dumpChannel, h', e, h3, say]

/-- MIDI channel 16 has no voice in static mode; MIDI channel 7 plays a PSG voice. -/
example : let e := Ex.env .static
    let s := Ex.after .static [.program 2 9, .remap 9 12, .remap 0x7F 9]
    (∀ i < 13, (s.dev i).midiChannel ≠ 15) ∧ (s.dev 6).midiChannel = 6 ∧ (s.dev 6).ops = .psg ∧
    (step e s (dumpChannelMsg 15)).log = .noFm 15 :: s.log ∧ (step e s (dumpChannelMsg 6)).log = .noFm 6 :: s.log ∧
    (step e s (dumpChannelMsg 16)).log = .badMidiChannel 16 :: s.log := by decide +kernel

/-- Bytes beyond the field widths, a store, other traffic, a reset, a dump. -/
private def wild : List Nat := (List.range 48).map fun i => (i * 37 + 5) % 128

example : let e := Ex.env .static
    let s := Ex.after .static [.program 0 3, storeMsg 3 wild, .noteOn 0 60 100, clearMsg 4, .reset]
    Replies e s (dumpMsg 3) (presetReply 3 (masked wild)) ∧ masked wild ≠ wild ∧
    Replies e (step e s clearAllMsg) (dumpMsg 3) (presetReply 3 (presetBytes (Ex.preset 3))) := by
  unfold Replies; decide +kernel

example : let e := Ex.env .static
    let s := Ex.after .static [.program 2 9, .cc 2 14 127]
    Replies e s (dumpChannelMsg 2) ([0xF0, 0x00, 0x22, 0x77, 0x10, 0, 2] ++
      presetBytes { Ex.preset 9 with algorithm := 7 } ++ [0xF7]) := by unfold Replies; decide +kernel

end Mdmi.Props
