import Verif.Proofs.MidiStill
/-!
# A key that is on belongs to a voice that sounds
-/
namespace Mdmi.Midi
open Mdmi.Synth (keyed)

variable {env : Env} {s t u : St}

/-- Every device channel drives the chip channel of its number, none plays samples. -/
structure Wired (s : St) : Prop where
  num : ∀ i, i < 13 → (s.dev i).num = chipNum i
  fm : ∀ i, i < 6 → (s.dev i).ops = .fm
  other : ∀ i, 6 ≤ i → i < 13 → (s.dev i).ops = .psg ∨ (s.dev i).ops = .sm
  square : ∀ i, 6 ≤ i → i < 10 → (s.dev i).ops = .psg
  special : ∀ i, 10 ≤ i → i < 13 → (s.dev i).ops = .sm

/-- FM channels that are keyed on are those of sounding voices. -/
structure KeyInv (s : St) : Prop where
  wired : Wired s
  on : ∀ n, n < 6 → keyed s.fm.synth.out n = true → (s.dev n).noteOn = true

theorem Wired.of (h : Wired s) (hn : ∀ i, i < 13 → (t.dev i).num = (s.dev i).num)
    (ho : ∀ i, i < 13 → (t.dev i).ops = (s.dev i).ops) : Wired t :=
  ⟨fun i hi => by rw [hn i hi]; exact h.num i hi, fun i hi => by rw [ho i (by omega)]; exact h.fm i hi,
    fun i h6 hi => by rw [ho i hi]; exact h.other i h6 hi, fun i h6 hi => by rw [ho i (by omega)]; exact h.square i h6 hi,
    fun i h6 hi => by rw [ho i hi]; exact h.special i h6 hi⟩

theorem Still.keyInv (h : Still s t) (k : KeyInv s) : KeyInv t := by
  have c := fun j => Dev.core_eq (h.dev j)
  refine ⟨k.wired.of (fun i _ => (c i).1) (fun i _ => (c i).2.1), fun n hn hk => ?_⟩
  rw [(c n).2.2.1]; rw [h.key] at hk
  exact k.on n hn hk

/-- Stores that keep the wiring and stop no voice. -/
theorem KeyInv.setDev {i : Nat} {f : Dev → Dev} (k : KeyInv s) (h1 : (f (s.dev i)).num = (s.dev i).num)
    (h2 : (f (s.dev i)).ops = (s.dev i).ops) (h3 : (s.dev i).noteOn = true → (f (s.dev i)).noteOn = true) :
    KeyInv (setDev s i f) := by
  refine ⟨k.wired.of (fun j _ => ?_) (fun j _ => ?_), fun n hn hk => ?_⟩
  all_goals rw [setDev_dev]
  · by_cases e : j = i
    · subst e; simpa using h1
    · simp [Psg.upd_other _ _ _ _ e]
  · by_cases e : j = i
    · subst e; simpa using h2
    · simp [Psg.upd_other _ _ _ _ e]
  · have := k.on n hn hk
    by_cases e : n = i
    · subst e; simpa using h3 this
    · simpa [Psg.upd_other _ _ _ _ e] using this

/-- Anything that keeps device channels and keys. -/
theorem KeyInv.same (k : KeyInv s) (h1 : t.dev = s.dev) (h2 : t.fm = s.fm) : KeyInv t := by
  obtain ⟨⟨a, b, c, e, f⟩, d⟩ := k
  rw [← h1] at a b c d e f; rw [← h2] at d
  exact ⟨⟨a, b, c, e, f⟩, d⟩

theorem fold_keyInv {α : Type} {f : St → α → St} (l : List α) (h : ∀ s, ∀ a ∈ l, KeyInv s → KeyInv (f s a)) (s : St)
    (k : KeyInv s) : KeyInv (l.foldl f s) := by
  induction l generalizing s with
  | nil => exact k
  | cons a l ih => exact ih (fun s b hb => h s b (by simp [hb])) _ (h s a (by simp) k)

private theorem chipNum_fm {n : Nat} (h : n < 6) : chipNum n = n := by unfold chipNum; rw [if_pos (by omega)]

/-- Starting a note on a voice that already counts as sounding. -/
theorem devNoteOn_keyInv {i p v : Nat} {x : Int} (hi : i < 13) (k : KeyInv s) (h : (s.dev i).noteOn = true) :
    KeyInv (devNoteOn env s i p x v) := by
  refine ⟨k.wired.of (fun j _ => by simp) (fun j _ => by simp), fun n hn hk => ?_⟩
  rw [devNoteOn_dev]
  by_cases e : n = i
  · subst e; exact h
  refine k.on n hn ?_
  rw [← hk]
  unfold devNoteOn
  by_cases h6 : i < 6
  · rw [k.wired.fm i h6]
    simp only [fmCall]
    rw [k.wired.num i hi, chipNum_fm h6]
    exact (Fm.noteOn_key env.fm s.fm h6 hn (Ne.symm e)).symm
  · rcases k.wired.other i (by omega) hi with h | h <;> rw [h]
    · rfl
    · exact (Fm.step_keyless env.fm s.fm rfl n).symm

theorem setDownstreamNoteOn_keyInv {i v : Nat} (hi : i < 13) (k : KeyInv s) (h : (s.dev i).noteOn = true) :
    KeyInv (setDownstreamNoteOn env s i v) := by
  unfold setDownstreamNoteOn withPitch
  simp only
  split
  · exact devNoteOn_keyInv hi k h
  · exact k.same rfl rfl

theorem devChanNoteOn_keyInv {i p v : Nat} (hi : i < 13) (k : KeyInv s) : KeyInv (devChanNoteOn env s i p v) :=
  setDownstreamNoteOn_keyInv hi (k.setDev rfl rfl fun _ => rfl) (by simp)

theorem startNote_keyInv {i c p v : Nat} (hi : i < 13) (k : KeyInv s) : KeyInv (startNote env s i c p v) := by
  unfold startNote
  extract_lets a b d
  have ka : KeyInv a := by
    show KeyInv (if (s.dev i).midiChannel = 9 ∧ c ≠ 9 then devProgram env s i (s.chan c).program else s)
    split
    · exact (devProgram_still i _).keyInv k
    · exact k
  have kb : KeyInv b := ka.setDev rfl rfl fun _ => rfl
  have kd : Still b d := updateDev_still i
  refine setDownstreamNoteOn_keyInv hi (kd.keyInv kb) ?_
  rw [(Dev.core_eq (kd.dev i)).2.2.1]
  simp [b]

/-- Releasing a voice keys its chip channel off. -/
theorem off_keyInv {i : Nat} {f : St → St} (hi : i < 13) (k : KeyInv s) (hd : ∀ s, (f s).dev = s.dev)
    (hk : ∀ s : St, Wired s → ∀ n, n < 6 → keyed (f s).fm.synth.out n = if n = i then false else keyed s.fm.synth.out n) :
    KeyInv (f (setDev s i fun d => { d with noteOn := false, pitch := 0 })) := by
  have w : Wired (setDev s i fun d => { d with noteOn := false, pitch := 0 }) := by
    refine k.wired.of (fun j _ => ?_) (fun j _ => ?_) <;> rw [setDev_dev] <;> by_cases e : j = i
    · subst e; simp
    · simp [Psg.upd_other _ _ _ _ e]
    · subst e; simp
    · simp [Psg.upd_other _ _ _ _ e]
  refine ⟨w.of (fun j _ => by rw [hd]) (fun j _ => by rw [hd]), fun n hn hkn => ?_⟩
  rw [hk _ w n hn] at hkn
  rw [hd]
  by_cases e : n = i
  · rw [if_pos e] at hkn; cases hkn
  · rw [if_neg e] at hkn
    simpa [Psg.upd_other _ _ _ _ e] using k.on n hn hkn

theorem devNoteOff_key {i n : Nat} (hi : i < 13) (w : Wired s) (hn : n < 6) :
    keyed (devNoteOff env s i).fm.synth.out n = if n = i then false else keyed s.fm.synth.out n := by
  unfold devNoteOff
  by_cases h6 : i < 6
  · rw [w.fm i h6]
    simp only [fmCall]
    rw [w.num i hi, chipNum_fm h6, Fm.noteOff_key env.fm s.fm h6 hn]
    simp only [eq_comm]
  · rw [if_neg (by omega)]
    rcases w.other i (by omega) hi with h | h <;> rw [h] <;> rfl

theorem devAllNotesOff_key {i n : Nat} (hi : i < 13) (w : Wired s) (hn : n < 6) :
    keyed (devAllNotesOff env s i).fm.synth.out n = if n = i then false else keyed s.fm.synth.out n := by
  unfold devAllNotesOff
  by_cases h6 : i < 6
  · rw [w.fm i h6]
    simp only [fmCall]
    rw [w.num i hi, chipNum_fm h6, Fm.allNotesOff_key env.fm s.fm h6 hn]
    simp only [eq_comm]
  · rw [if_neg (by omega)]
    rcases w.other i (by omega) hi with h | h <;> rw [h] <;> rfl

theorem devChanNoteOff_keyInv {i : Nat} (hi : i < 13) (k : KeyInv s) : KeyInv (devChanNoteOff env s i) :=
  off_keyInv hi k (fun _ => devNoteOff_dev i) fun _ w _ hn => devNoteOff_key hi w hn

theorem noteOff_keyInv (c p : Nat) (k : KeyInv s) : KeyInv (noteOff env s c p) := by
  unfold noteOff
  split
  · exact k.same rfl rfl
  split
  · exact k.same rfl rfl
  rename_i next st _
  extract_lets a
  have ka : KeyInv a := k.same rfl rfl
  generalize singleVoice a c true = single
  have h : ∀ (l : List Nat) (x : St × Bool), (∀ i ∈ l, i < 13) → KeyInv x.1 →
      KeyInv (l.foldl (noteOffBody env c p next single) x).1 := by
    intro l
    induction l with
    | nil => intro x _ k; exact k
    | cons i l ih =>
      intro x hl k
      refine ih _ (fun j hj => hl j (by simp [hj])) ?_
      have hi := hl i (by simp)
      obtain ⟨s, handled⟩ := x
      unfold noteOffBody
      simp only
      split
      · split
        · split
          · split
            · exact k.same rfl rfl
            · exact KeyInv.setDev (s := setChan s c _) (i := i) (f := fun d => { d with glide := next }) (k.same rfl rfl) rfl rfl fun h => h
          · exact devChanNoteOn_keyInv hi k
        · exact devChanNoteOff_keyInv hi k
      · exact k
  exact h _ (a, false) (by simp) ka

theorem noteOn_keyInv (c p v : Nat) (k : KeyInv s) : KeyInv (noteOn env s c p v) := by
  unfold noteOn
  split
  · exact noteOff_keyInv c p k
  split
  · exact k
  split
  · exact k.same rfl rfl
  rename_i i hi
  have hi := findFree_lt hi
  split
  · split
    · exact k.same rfl rfl
    split
    · exact k.same rfl rfl
    simp only
    split
    · exact KeyInv.setDev (k.same rfl rfl) rfl rfl fun h => h
    · exact startNote_keyInv hi (KeyInv.setDev (k.same rfl rfl) rfl rfl fun h => h)
  · exact startNote_keyInv hi k

theorem foreach_keyInv {c : Nat} {body : St → Nat → St} (h : ∀ s i, i < 13 → KeyInv s → KeyInv (body s i)) (k : KeyInv s) :
    KeyInv (foreach s c body) := by
  refine fold_keyInv _ (fun s i hi k => ?_) s k
  split
  · exact h s i (by simpa using hi) k
  · exact k

theorem allNotesOff_keyInv (c : Nat) (k : KeyInv s) : KeyInv (allNotesOff env s c) :=
  foreach_keyInv (fun _ i hi k => off_keyInv hi k (fun _ => devAllNotesOff_dev i) fun _ w _ hn => devAllNotesOff_key hi w hn) k

theorem tick_keyInv (k : KeyInv s) : KeyInv (tick env s) := by
  unfold tick
  refine fold_keyInv _ (fun s i _ k => ?_) s k
  split
  · exact k
  split
  · split
    · unfold processGlide
      split
      · exact k
      · exact (setDownstreamPitch_still i).keyInv (k.setDev rfl rfl fun h => h)
    · exact k
  · exact k.same rfl rfl

/-- Any change of mapping and mode keeps it. -/
theorem KeyInv.remapped (k : KeyInv s) (h : ∀ i, i < 13 → (t.dev i).num = (s.dev i).num ∧ (t.dev i).ops = (s.dev i).ops ∧
    (t.dev i).noteOn = (s.dev i).noteOn) (hf : t.fm = s.fm) : KeyInv t := by
  refine ⟨k.wired.of (fun i hi => (h i hi).1) (fun i hi => (h i hi).2.1), fun n hn hk => ?_⟩
  rw [hf] at hk
  rw [(h n (by omega)).2.2]; exact k.on n hn hk

theorem applyDynamicMode_keyInv (k : KeyInv s) : KeyInv (applyDynamicMode s) :=
  k.remapped (fun i hi => by simp [applyDynamicMode, hi]) rfl

theorem setDynamicMode_keyInv (m : Mode) (k : KeyInv s) : KeyInv (setDynamicMode s m) := by
  unfold setDynamicMode
  cases m
  · exact applyDynamicMode_keyInv (k.same rfl rfl)
  · exact applyDynamicMode_keyInv (k.same rfl rfl)
  · exact k.same rfl rfl

theorem remap_keyInv (c i : Nat) (k : KeyInv s) : KeyInv (remap s c i) := by
  unfold remap
  split
  · exact k.same rfl rfl
  split
  · split
    · exact k.setDev rfl rfl fun h => h
    · exact k
  split
  · exact k.same rfl rfl
  · exact k.setDev rfl rfl fun h => h

theorem setPolyphonic_keyInv (e : Bool) (k : KeyInv s) : KeyInv (setPolyphonic s e) := by
  unfold setPolyphonic
  simp only
  split
  · exact fold_keyInv _ (fun s i _ k => remap_keyInv 0 i k) _ (setDynamicMode_keyInv _ k)
  · exact setDynamicMode_keyInv _ k

theorem noteSwitch_keyInv (e : Bool) (k : KeyInv s) (h : e = false) : KeyInv (enableDac env s e) := by
  subst h
  unfold enableDac
  refine Still.keyInv (.fm rfl) ?_
  exact k.setDev rfl (by simp [k.wired.fm 5 (by omega)]) fun h => h

/-- Messages after which a key may be on for a voice that does not count as sounding: sample playback on, reset all
controllers, General MIDI reset, raw register writes. -/
def Op.unkeys : Op → Bool
  | .cc _ k v => k == 121 || (k == 78 && decide (64 ≤ v))
  | .sysex d _ => decide (d.take 4 ∈ [[0x7E, 0x7F, 0x09, 0x01], [0, 0x22, 0x77, 8], [0, 0x22, 0x77, 9]])
  | _ => false

theorem resetChannels_keyInv (hk : ∀ n, n < 6 → keyed s.fm.synth.out n = false) : KeyInv (resetChannels env s) := by
  unfold resetChannels
  extract_lets a
  refine applyDynamicMode_keyInv ?_
  have h : ∀ n, n ≤ 13 → let t := (List.range n).foldl (initDev env) a
      (∀ i, i < n → (t.dev i).num = chipNum i ∧ (i < 6 → (t.dev i).ops = .fm) ∧
        (6 ≤ i → (t.dev i).ops = .psg ∨ (t.dev i).ops = .sm) ∧ (6 ≤ i → i < 10 → (t.dev i).ops = .psg) ∧
        (10 ≤ i → (t.dev i).ops = .sm)) ∧ ∀ n, n < 6 → keyed t.fm.synth.out n = false := by
    intro n
    induction n with
    | zero => intro _; exact ⟨fun i hi => absurd hi (by omega), hk⟩
    | succ m ih =>
      intro hm
      obtain ⟨h1, h2⟩ := ih (by omega)
      simp only [List.range_succ, List.foldl_append, List.foldl_cons, List.foldl_nil]
      generalize (List.range m).foldl (initDev env) a = t at *
      unfold initDev
      extract_lets b
      have st : Still b (updateDev env b m) := updateDev_still m
      refine ⟨fun i hi => ?_, fun n hn => by rw [st.key]; exact h2 n hn⟩
      have c := Dev.core_eq (st.dev i)
      rw [c.1, c.2.1]
      by_cases e : i = m
      · subst e
        simp only [b, setDev_dev, upd_self]
        unfold chipNum
        refine ⟨?_, fun h => ?_, fun h => ?_, fun h h' => ?_, fun h => ?_⟩
        · split
          · rfl
          · split <;> rfl
        · rw [if_pos (by omega)]
        · rw [if_neg (by omega)]; split <;> simp
        · rw [if_neg (by omega), if_pos (by omega)]
        · rw [if_neg (by omega), if_neg (by omega)]
      · simp only [b, setDev_dev, Psg.upd_other _ _ _ _ e]
        exact h1 i (by omega)
  obtain ⟨h1, h2⟩ := h 13 (by omega)
  exact ⟨⟨fun i hi => (h1 i hi).1, fun i hi => (h1 i (by omega)).2.1 hi, fun i h6 hi => (h1 i hi).2.2.1 h6,
    fun i h6 hi => (h1 i (by omega)).2.2.2.1 h6 hi, fun i h6 hi => (h1 i hi).2.2.2.2 h6⟩, fun n hn hk => by rw [h2 n hn] at hk; cases hk⟩

theorem reset_keyInv (he : env.Ok) (s : St) : KeyInv (reset env s) := by
  unfold reset
  extract_lets a b c d
  refine resetChannels_keyInv fun n hn => ?_
  show keyed (Fm.step env.fm b.fm .smReset).synth.out n = false
  rw [Fm.step_keyless env.fm _ rfl]
  exact Fm.reset_key env.fm he.fm _ hn

/-- A command of this device. -/
theorem sysex_cmd {d : List Nat} {j c : Nat} (h : d.take 4 = [0, 0x22, 0x77, c]) : sysex env s d j =
    match commandLength c with
    | none => say s (.badCommand c)
    | some (some n) => if (d.drop 4).length ≠ n then say s (.badLength c (d.drop 4).length) else handler env s c (d.drop 4) j
    | some none => handler env s c (d.drop 4) j := by
  have hl : 4 ≤ d.length := by
    have := congrArg List.length h
    simp at this; omega
  have h3 : d.take 3 = [0, 0x22, 0x77] := by
    have := congrArg (List.take 3) h
    rwa [List.take_take] at this
  have hc : d.getD 3 0 = c := by
    have : (d.take 4)[3]? = some c := by rw [h]; rfl
    rw [List.getElem?_take_of_lt (by omega)] at this
    rw [List.getD_eq_getElem?_getD, this]; rfl
  unfold sysex
  rw [if_neg (by omega), if_neg (by rw [h]; simp), if_neg (by rw [h3]; simp)]
  simp only [hc]
  rfl

theorem sysex_keyInv (d : List Nat) (j : Nat) (h : Op.unkeys (.sysex d j) = false) (k : KeyInv s) :
    KeyInv (sysex env s d j) := by
  by_cases hv : voicingSysex d = false
  · exact (sysex_still d j hv).keyInv k
  · have hv : voicingSysex d = true := by simpa using hv
    simp only [voicingSysex, List.mem_cons, List.not_mem_nil, or_false, decide_eq_true_eq] at hv
    simp only [Op.unkeys, List.mem_cons, List.not_mem_nil, or_false, decide_eq_false_iff_not, not_or] at h
    rcases hv with e | e | e | e | e
    · exact absurd e h.1
    · rw [sysex_cmd e]
      simp only [commandLength]
      split
      · exact k.same rfl rfl
      · exact remap_keyInv _ _ k
    · rw [sysex_cmd e]
      simp only [commandLength]
      split
      · exact k.same rfl rfl
      · exact setDynamicMode_keyInv _ k
    · exact absurd e h.2.1
    · exact absurd e h.2.2

theorem step_keyInv (he : env.Ok) {op : Op} (h : op.unkeys = false) (k : KeyInv s) : KeyInv (step env s op) := by
  have ub : KeyInv (ub s) := k.same rfl rfl
  cases op with
  | noteOn c p v =>
    simp only [step]; split
    · exact noteOn_keyInv c p v k
    · exact ub
  | noteOff c p =>
    simp only [step]; split
    · exact noteOff_keyInv c p k
    · exact ub
  | bend c b =>
    simp only [step]; split
    · exact (pitchBend_still c b).keyInv k
    · exact ub
  | program c p =>
    simp only [step]; split
    · exact (program_still c p).keyInv k
    · exact ub
  | sysex d j => exact sysex_keyInv d j h k
  | remap c i => exact remap_keyInv c i k
  | reset => exact reset_keyInv he s
  | tick => exact tick_keyInv k
  | psgTick => exact k.same rfl rfl
  | cc c n v =>
    simp only [step]; split
    · by_cases hv : voicing n = false
      · exact (cc_still c n v hv).keyInv k
      · simp only [Op.unkeys, Bool.or_eq_false_iff, Bool.and_eq_false_iff, beq_eq_false_iff_ne, decide_eq_false_iff_not] at h
        refine Still.keyInv (.emit _) ?_
        have hv : voicing n = true := by simpa using hv
        simp only [voicing, Bool.or_eq_true, beq_iff_eq] at hv
        rcases hv with ((((rfl | rfl) | rfl) | rfl) | rfl) | rfl
        · exact k.same rfl rfl
        · refine foreach_keyInv (fun s i _ k => ?_) k
          show KeyInv (if s.cfg.disableNonGm then s else enableDac env s (v / 64 ≠ 0))
          split
          · exact k
          · refine noteSwitch_keyInv _ k ?_
            simp; omega
        · exact setPolyphonic_keyInv _ k
        · exact allNotesOff_keyInv c k
        · exact absurd rfl h.1
        · exact allNotesOff_keyInv c k
    · exact ub

theorem run_keyInv (he : env.Ok) (ops : List Op) (h : ∀ op ∈ ops, op.unkeys = false) (k : KeyInv s) :
    KeyInv (run env s ops) := fold_keyInv ops (fun _ op ho k => step_keyInv he (h op ho) k) s k

theorem boot_keyInv (he : env.Ok) (b : Bool) (m : Sram.Mem) : KeyInv (boot env b m) := reset_keyInv he _

end Mdmi.Midi
