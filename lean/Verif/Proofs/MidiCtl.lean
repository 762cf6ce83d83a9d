import Verif.Proofs.MidiReset
import Verif.Proofs.MidiEach
/-!
# What Reset All Controllers leaves
-/
namespace Mdmi.Midi
open Mdmi.Synth (keyed)

variable {env : Env} {tame : Bool} {s t : St} {i j c : Nat}

/-- A device channel after `init_device_channel`: silent, on the MIDI channel with its number, with that channel's
settings. -/
def freshOn (chan : Nat → Chan) (j : Nat) : Dev := (resetDev false j).sync (chan j)

theorem initDev_all (hj : j < 13) : (initDev env s j).dev = upd s.dev j (freshOn s.chan j) := by
  unfold initDev
  extract_lets b
  have e : b.dev j = { (if j ≤ 5 then { s.dev j with num := j, ops := .fm }
      else if j ≤ 9 then { s.dev j with num := j - 6, ops := .psg }
      else { s.dev j with num := j - 10, ops := .sm }) with noteOn := false, midiChannel := j, pitch := 0, cents := 0, pitchBend := 0x2000, glide := 0 } := by
    simp only [b, setDev_dev, upd_self]
  have mc : (b.dev j).midiChannel = j := by rw [e]
  have bc : b.chan = s.chan := rfl
  have bd : ∀ x, upd b.dev j x = upd s.dev j x := fun x => by simp only [b, setDev_dev, upd_upd]
  rw [updateDev_dev (by rw [mc]; omega), bd, mc, bc, e]
  congr 1
  unfold freshOn resetDev Dev.sync
  by_cases h5 : j ≤ 5
  · simp [h5]
  · by_cases h9 : j ≤ 9
    · simp [h5, h9]
    · simp [h5, h9]

/-- A loop that initialises voices: what it leaves of the engine state. -/
theorem initAll_state (c : Nat) (a : St) :
    (foreach a c (initDev env)).chan = a.chan ∧ (foreach a c (initDev env)).dynamic = a.dynamic ∧
    (foreach a c (initDev env)).cfg = a.cfg ∧
    (∀ n, keyed (foreach a c (initDev env)).fm.synth.out n = keyed a.fm.synth.out n) ∧
    ∀ l, l < 13 → (foreach a c (initDev env)).dev l = if (a.dev l).midiChannel = c then freshOn a.chan l else a.dev l := by
  have key : ∀ n, n ≤ 13 → let t := (List.range n).foldl (fun s i => if (s.dev i).midiChannel = c then initDev env s i else s) a
      t.chan = a.chan ∧ t.dynamic = a.dynamic ∧ t.cfg = a.cfg ∧ (∀ n, keyed t.fm.synth.out n = keyed a.fm.synth.out n) ∧
      ∀ l, t.dev l = if l < n ∧ (a.dev l).midiChannel = c then freshOn a.chan l else a.dev l := by
    intro n
    induction n with
    | zero => intro _; exact ⟨rfl, rfl, rfl, fun _ => rfl, fun l => by simp⟩
    | succ m ih =>
      intro hm
      obtain ⟨h1, h0, h4, h3, h2⟩ := ih (by omega)
      simp only [List.range_succ, List.foldl_append, List.foldl_cons, List.foldl_nil]
      generalize (List.range m).foldl (fun s i => if (s.dev i).midiChannel = c then initDev env s i else s) a = t at *
      have em : t.dev m = a.dev m := by rw [h2 m]; simp
      rw [em]
      by_cases e : (a.dev m).midiChannel = c
      · rw [if_pos e]
        refine ⟨by simp [h1], by rw [initDev_dynamic]; exact h0, by rw [initDev_cfg]; exact h4, fun n => ?_, fun l => ?_⟩
        · rw [← h3 n]
          unfold initDev
          extract_lets b
          have : Still b (updateDev env b m) := updateDev_still m
          exact this.key n
        · rw [initDev_all (by omega), h1]
          by_cases x : l = m
          · subst x; simp [e]
          · rw [Psg.upd_other _ _ _ _ x, h2 l]
            by_cases y : l < m
            · simp [y, show l < m + 1 by omega]
            · simp [y, show ¬ l < m + 1 by omega]
      · rw [if_neg e]
        refine ⟨h1, h0, h4, h3, fun l => ?_⟩
        rw [h2 l]
        by_cases x : l = m
        · subst x; simp [e]
        · by_cases y : l < m
          · simp [y, show l < m + 1 by omega]
          · simp [y, show ¬ l < m + 1 by omega]
  obtain ⟨h1, h0, h4, h3, h2⟩ := key 13 (by omega)
  unfold foreach
  generalize (List.range 13).foldl (fun s i => if (s.dev i).midiChannel = c then initDev env s i else s) a = t at *
  exact ⟨h1, h0, h4, h3, fun l hl => by rw [h2 l]; simp [hl]⟩

theorem setDynamicMode_own (s : St) : 
    (setDynamicMode s (modeOf s.dynamic)).chan = s.chan ∧ (setDynamicMode s (modeOf s.dynamic)).dynamic = s.dynamic ∧
    (setDynamicMode s (modeOf s.dynamic)).cfg = { s.cfg with pref := modeOf s.dynamic } ∧
    (setDynamicMode s (modeOf s.dynamic)).fm = s.fm ∧ (setDynamicMode s (modeOf s.dynamic)).psg = s.psg ∧
    ∀ i, i < 13 → (setDynamicMode s (modeOf s.dynamic)).dev i =
      { s.dev i with midiChannel := if s.dynamic then 127 else i } := by
  cases e : s.dynamic <;> simp +contextual [modeOf, setDynamicMode, applyDynamicMode]

/-- Reset All Controllers in full, as far as the engine state goes. -/
theorem resetAllControllers_state (env : Env) (s : St) (c : Nat) :
    let t := resetAllControllers env s c
    let a := setChan s c fun _ => freshChan
    t.chan = a.chan ∧ t.dynamic = s.dynamic ∧ t.cfg = { s.cfg with pref := modeOf s.dynamic } ∧
    (∀ n, keyed t.fm.synth.out n = keyed s.fm.synth.out n) ∧
    ∀ i, i < 13 → t.dev i =
      { (if (s.dev i).midiChannel = c then freshOn a.chan i else s.dev i) with
        midiChannel := if s.dynamic then 127 else i } := by
  unfold resetAllControllers
  extract_lets a b
  obtain ⟨h1, h2, h3, h4, h5⟩ := initAll_state (env := env) c a
  have eb : foreach a c (initDev env) = b := rfl
  rw [eb] at h1 h2 h3 h4 h5
  clear_value b
  obtain ⟨k1, k2, k3, k4, k5, k6⟩ := setDynamicMode_own b
  refine ⟨k1.trans h1, k2.trans h2, ?_, fun n => ?_, fun i hi => ?_⟩
  · rw [k3, h3, h2]; rfl
  · rw [k4]; exact h4 n
  · rw [k6 i hi, h5 i hi, h2]; rfl

/-- Reset All Controllers calls the drivers for the voices of the channel only. -/
theorem resetAllControllers_path (he : env.Ok) (hs : Ok env tame s) (hc : c < 16) :
    Path env tame (fun i => (s.dev i).midiChannel = c) (· = c) (fun _ => False) (fun _ => False) s
      (foreach (setChan s c fun _ => freshChan) c (initDev env)) := by
  have h1 : Path env tame (fun i => (s.dev i).midiChannel = c) (· = c) (fun _ => False) (fun _ => False) s
    (setChan s c fun _ => freshChan) := Path.refl.chan rfl hc freshChan_ok
  have e1 : (setChan s c fun _ => freshChan).dev = s.dev := rfl
  generalize (setChan s c fun _ => freshChan) = a at *
  have key : ∀ n, n ≤ 13 → let t := (List.range n).foldl (fun s i => if (s.dev i).midiChannel = c then initDev env s i else s) a
      Path env tame (fun i => (s.dev i).midiChannel = c) (· = c) (fun _ => False) (fun _ => False) s t ∧
      ∀ l, n ≤ l → t.dev l = s.dev l := by
    intro n
    induction n with
    | zero => intro _; exact ⟨h1, fun l _ => by rw [← e1]; rfl⟩
    | succ m ih =>
      intro hm
      obtain ⟨h1, h2⟩ := ih (by omega)
      simp only [List.range_succ, List.foldl_append, List.foldl_cons, List.foldl_nil]
      generalize (List.range m).foldl (fun s i => if (s.dev i).midiChannel = c then initDev env s i else s) a = t at *
      rw [h2 m (by omega)]
      by_cases e : (s.dev m).midiChannel = c
      · rw [if_pos e]
        refine ⟨h1.trans (initDev_path he (h1.ok he hs) (show m < 13 by omega) e), fun l hl => ?_⟩
        rw [initDev_all (by omega), Psg.upd_other _ _ _ _ (by omega)]
        exact h2 l (by omega)
      · rw [if_neg e]
        exact ⟨h1, fun l hl => h2 l (by omega)⟩
  unfold foreach
  exact (key 13 (by omega)).1

/-! ### The preferred mapping mode -/

/-- A chosen mapping mode is in force. -/
def Settled (s : St) : Prop := s.cfg.pref ≠ .auto → s.dynamic = (s.cfg.pref == .dynamic)

theorem Settled.same (k : Settled s) (h1 : t.cfg.pref = s.cfg.pref) (h2 : t.dynamic = s.dynamic) : Settled t := by
  unfold Settled; rw [h1, h2]; exact k

theorem Path.settled {A C : Nat → Prop} {G : Fm.Op → Prop} {H : Psg.Op → Prop} (h : Path env tame A C G H s t) (k : Settled s) :
    Settled t := k.same (by rw [h.frame.cfg]) h.frame.dynamic

theorem setDynamicMode_settled (m : Mode) : Settled (setDynamicMode s m) := by
  unfold Settled
  cases m <;> simp [setDynamicMode, applyDynamicMode]

theorem remap_settled (k : Settled s) (c i : Nat) : Settled (remap s c i) := by
  unfold remap
  repeat' split
  all_goals exact k

theorem ccSwitch_settled (he : env.Ok) (hs : Ok env tame s) (kk : Settled s) {c k v : Nat} (hc : c < 16) (hv : v < 128)
    (hd : tame = false → ¬(k = 78 ∧ 64 ≤ v)) : Settled (ccSwitch env s c k v) := by
  unfold ccSwitch
  split
  · split <;> exact kk
  · have h1 : Ok env tame (setChan s c fun m => { m with volume := v }) :=
      setChan_ok hs fun h => { hs.chan c h with volume := hv }
    exact (updateVolume_all (C := fun _ => True) (G := fun _ => True) (H := fun _ => True) he h1 hc).settled kk
  · have h1 : Ok env tame (setChan s c fun m => { m with pan := v }) :=
      setChan_ok hs fun h => { hs.chan c h with }
    exact (updatePan_all (C := fun _ => True) (G := fun _ => True) (H := fun _ => True) he h1).settled kk
  · exact (allNotesOff_path (C := fun _ => True) (G := fun _ => True) (H := fun _ => True) he hs).1.settled kk
  · exact (allNotesOff_path (C := fun _ => True) (G := fun _ => True) (H := fun _ => True) he hs).1.settled kk
  · unfold setPolyphonic
    have h := setDynamicMode_settled (s := s) (modeOf (decide (v / 64 ≠ 0)))
    simp only
    generalize setDynamicMode s (modeOf (decide (v / 64 ≠ 0))) = t at *
    split
    · exact List.foldlRecOn (motive := Settled) _ _ h fun u hu i _ => remap_settled hu 0 i
    · exact h
  · exact kk
  · unfold resetAllControllers
    exact setDynamicMode_settled _
  · split <;> exact kk
  · split <;> exact kk
  · exact kk
  · split <;> exact kk
  · exact (rpnDataEntry_path (G := fun _ => True) (H := fun _ => True) he hs hc).settled kk
  · exact (rpnDataEntry_path (G := fun _ => True) (H := fun _ => True) he hs hc).settled kk
  · exact kk
  · exact kk
  iterate 4 exact kk
  · exact (storeFromChannel_path (A := fun _ => True) (C := fun _ => True) (G := fun _ => True) (H := fun _ => True)
      hs hv (fun _ => trivial)).settled kk
  · refine (foreach_path (A := fun _ => True) (C := fun _ => True) (G := fun _ => True) (H := fun _ => True)
      he hs _ ?_).1.settled kk
    intro t i ht _ hi _
    exact setFmParam_path ht hi (fun _ => trivial) (fun _ _ => trivial) (fun _ _ => trivial) hd

theorem resetChannels_settled (k : Settled s) : Settled (resetChannels env s) :=
  k.same (by rw [resetChannels_cfg]) (resetChannels_mode)

theorem say_settled (k : Settled s) (m : Msg) : Settled (say s m) := k

theorem clearAll_settled (k : Settled s) (d : List Nat) : Settled (clearAll env s d) := by
  have key : ∀ (l : List Nat) t, Settled t → Settled (l.foldl (fun s n => fmCall env s (.clear n)) t) := by
    intro l
    induction l with
    | nil => exact fun _ h => h
    | cons a l ih => exact fun t h => ih _ h
  unfold clearAll
  split
  · exact say_settled (key _ s k) _
  · exact k

theorem handler_settled (k : Settled s) (c : Nat) (d : List Nat) (j : Nat) : Settled (handler env s c d j) := by
  unfold handler
  split
  · exact remap_settled k _ _
  · exact k
  · exact setDynamicMode_settled _
  · exact k
  · exact k
  · unfold loadPsgEnvelope; split <;> exact k
  · exact k
  · exact k
  · exact k
  · unfold storeProgram; split <;> exact k
  · unfold clearProgram; split <;> exact k
  · exact clearAll_settled k d
  · unfold dumpPreset; split
    · split <;> exact k
    · exact k
  · unfold dumpChannel; simp only; split
    · exact k
    split
    · split
      · split <;> exact k
      · exact k
    · exact k
  · exact k

theorem auto_settled (k : Settled t) : Settled (if t.cfg.pref = .auto then { t with dynamic := true } else t) := by
  split
  · rename_i e; intro h; exact absurd e h
  · exact k

theorem generalMidiReset_settled (he : env.Ok) (hs : Ok env tame s) (k : Settled s) : Settled (generalMidiReset env s) := by
  unfold generalMidiReset
  have h1 : ∀ (l : List Nat) t, Ok env tame t ∧ Settled t → Settled (l.foldl (allNotesOff env) t) := by
    intro l
    induction l with
    | nil => exact fun _ h => h.2
    | cons a l ih =>
      intro t h
      have p := (allNotesOff_path (c := a) (C := fun _ => True) (G := fun _ => True) (H := fun _ => True) he h.1).1
      rw [List.foldl_cons]
      exact ih _ ⟨p.ok he h.1, p.settled h.2⟩
  exact resetChannels_settled (auto_settled (h1 (List.range 16) s ⟨hs, k⟩))

theorem reset_settled (s : St) : Settled (reset env s) := by
  obtain ⟨-, -, h3, h4⟩ := reset_state env s
  intro _
  rw [h3, h4]

theorem step_settled (he : env.Ok) (hs : Ok env tame s) (k : Settled s) {op : Op} (hw : op.Wf)
    (hd : tame = false → ¬op.enablesDac) (hb : tame = true → ¬op.detunes) : Settled (step env s op) := by
  cases op with
  | noteOn c p v =>
    simp only [step, if_pos hw.1]
    by_cases h0 : v = 0
    · simp only [noteOn, if_pos h0]
      exact (noteOff_path (G := fun _ => True) (H := fun _ => True) he hs hw.1).1.settled k
    · exact (noteOn_path (G := fun _ => True) (H := fun _ => True) he hs hw.1 (lt_top hw.2.1) hw.2.2 h0).settled k
  | noteOff c p =>
    simp only [step, if_pos hw.1]
    exact (noteOff_path (G := fun _ => True) (H := fun _ => True) he hs hw.1).1.settled k
  | bend c b =>
    simp only [step, if_pos hw.1]
    exact (pitchBend_path (G := fun _ => True) (H := fun _ => True) he hs hw.1
      (fun ht => by simpa [Op.detunes] using hb ht)).settled k
  | cc c n v =>
    simp only [step, if_pos hw.1]
    exact (ccSwitch_settled he hs k hw.1 hw.2.2 hd).same (t := cc env s c n v) rfl rfl
  | program c p =>
    simp only [step, if_pos hw.1]
    obtain ⟨t, e, h⟩ := program_path (G := fun _ => True) (H := fun _ => True) he hs hw.1 hw.2
    rw [e]; exact h.settled k
  | sysex d j =>
    simp only [step]
    unfold sysex
    split
    · exact k
    split
    · exact generalMidiReset_settled he hs k
    split
    · exact k
    simp only
    split
    · exact k
    · split
      · exact k
      · exact handler_settled k _ _ _
    · exact handler_settled k _ _ _
  | remap c i => exact remap_settled k c i
  | reset => exact reset_settled s
  | tick => exact (tick_path (C := fun _ => True) (G := fun _ => True) (H := fun _ => True) he hs).settled k
  | psgTick => exact k

theorem run_settled (he : env.Ok) (ops : List Op) : ∀ s, Ok env tame s → Settled s → (∀ op ∈ ops, op.Wf) →
    (tame = false → ∀ op ∈ ops, ¬op.enablesDac) → (tame = true → ∀ op ∈ ops, ¬op.detunes) →
    Settled (run env s ops) := by
  induction ops with
  | nil => intro s _ k _ _ _; exact k
  | cons op ops ih =>
    intro s hs k hw hd hb
    have hw1 := hw op (by simp)
    have hd1 : tame = false → ¬op.enablesDac := fun h => hd h op (by simp)
    have hb1 : tame = true → ¬op.detunes := fun h => hb h op (by simp)
    exact ih _ (step_ok he hs hw1 hd1 hb1) (step_settled he hs k hw1 hd1 hb1)
      (fun o ho => hw o (by simp [ho])) (fun h o ho => hd h o (by simp [ho])) (fun h o ho => hb h o (by simp [ho]))

end Mdmi.Midi
