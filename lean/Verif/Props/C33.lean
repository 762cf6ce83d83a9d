import Verif.Proofs.MidiFmSram
/-! C33: stored presets survive a power cycle. -/
namespace Mdmi.Props
open Mdmi Mdmi.Fm

/-- **C33** (power cycle).  After any history of legal calls on a cartridge with SRAM, whatever the memory
held at first, a restart makes available exactly the presets that were available before it, for every
program. -/
theorem C33_restart_preserves_presets_partial (env : Fm.Env) (he : env.Ok) (hs : env.sram = true) (b b' : Bool)
    (m : Sram.Mem) (ops : List Fm.Op) (hl : ∀ op ∈ ops, op.Legal) (n : Nat) :
    let s := Fm.run env (Fm.boot env b m) ops
    getStoredPreset env (Fm.boot env b' s.mem) n = getStoredPreset env s n := by
  have h := (boot_ok he b m).1
  have mr := (boot_mirror he hs b m).run he hs h ops hl
  have mr' := boot_mirror he hs b' (Fm.run env (Fm.boot env b m) ops).mem
  simp only [getStoredPreset]
  split
  · rfl
  · rename_i hn
    rw [mr' n (by omega), mr n (by omega)]
    unfold Fm.boot
    rw [reset_mem he]
    rfl

/-- **C33** (store).  A preset stored for a program and not overwritten or cleared since is, after a
restart, the one a program change on any channel loads into the chip. -/
theorem C33_stored_preset_after_restart_partial (env : Fm.Env) (he : env.Ok) (hs : env.sram = true) (b b' : Bool)
    (m : Sram.Mem) (pre post : List Fm.Op) (n : Nat) (p : Synth.FmPreset) (hn : n < 128) (hp : p.Ok)
    (hl : ∀ op ∈ pre ++ post, op.Legal) (hw : ∀ op ∈ post, ¬ op.writes n) (c : Nat) (hc : c < 6) :
    let s := Fm.run env (Fm.boot env b m) (pre ++ .store n p :: post)
    let s' := Fm.boot env b' s.mem
    getStoredPreset env s' n = some p ∧
    (Synth.chipChannel (Fm.step env s' (.program c n)).synth.out c).timbre =
      (⟨p.algorithm, p.feedback, 3, p.ams, p.fms, 0, 0, p.ops⟩ : Synth.FmChannel).timbre := by
  have h0 := (boot_ok he b m).1
  have h1 := h0.run he pre fun o ho => hl o (by simp [ho])
  have h2 := h1.step he (op := .store n p) ⟨hn, hp⟩
  have e : Fm.run env (Fm.boot env b m) (pre ++ .store n p :: post) =
      Fm.run env (Fm.step env (Fm.run env (Fm.boot env b m) pre) (.store n p)) post := by
    simp only [Fm.run, List.foldl_append, List.foldl_cons]
  have hh : held (Fm.run env (Fm.boot env b m) (pre ++ .store n p :: post)).mem n = some p := by
    rw [e, run_held he hs h2 post (fun o ho => hl o (by simp [ho])) hw,
      step_held he hs h1 (op := .store n p) ⟨hn, hp⟩]
    simp
  simp only
  generalize Fm.run env (Fm.boot env b m) (pre ++ .store n p :: post) = s at hh ⊢
  have hg : getStoredPreset env (Fm.boot env b' s.mem) n = some p := by
    unfold getStoredPreset Fm.boot
    rw [if_neg (by omega), reset_user he hs _ hn]
    simp only [powerOn, hh]
  refine ⟨hg, ?_⟩
  have st : (Synth.chipChannel (Fm.boot env b' s.mem).synth.out c).stereo = 3 := by
    obtain ⟨q, hq, hqo⟩ := presetOf he (n := 0) (by omega)
    have i := (boot_ok he b' s.mem).2
    have k := congrArg Synth.FmChannel.stereo (i.ch c hc).chip
    have k' : ((Fm.boot env b' s.mem).synth.ch c).stereo = 3 := by
      have : (Fm.boot env b' s.mem).synth = Synth.init (sramLoad env
          { powerOn b' s.mem with user := fun _ => none, ch := resetChans (powerOn b' s.mem).ch }).synth q := by
        simp only [Fm.boot, Fm.reset, hq, call, Synth.step]
      rw [this, (Synth.init_ch q _ hc).1]
      rfl
    exact k.trans k'
  have k := program_timbre (boot_ok he b' s.mem).2 hc hp hg
  rw [st] at k
  exact k

/-- **C33** (clear).  A cleared program that was not stored again reverts, after a restart, to its built-in
preset. -/
theorem C33_cleared_preset_after_restart_partial (env : Fm.Env) (he : env.Ok) (hs : env.sram = true) (b b' : Bool)
    (m : Sram.Mem) (pre post : List Fm.Op) (n : Nat) (hn : n < 128)
    (hl : ∀ op ∈ pre ++ post, op.Legal) (hw : ∀ op ∈ post, ¬ op.writes n) :
    let s := Fm.run env (Fm.boot env b m) (pre ++ .clear n :: post)
    getStoredPreset env (Fm.boot env b' s.mem) n = env.presets[n]? := by
  have h1 := (boot_ok he b m).1.run he pre fun o ho => hl o (by simp [ho])
  have h2 := h1.step he (op := .clear n) hn
  have e : Fm.run env (Fm.boot env b m) (pre ++ .clear n :: post) =
      Fm.run env (Fm.step env (Fm.run env (Fm.boot env b m) pre) (.clear n)) post := by
    simp only [Fm.run, List.foldl_append, List.foldl_cons]
  have hh : held (Fm.run env (Fm.boot env b m) (pre ++ .clear n :: post)).mem n = none := by
    rw [e, run_held he hs h2 post (fun o ho => hl o (by simp [ho])) hw,
      step_held he hs h1 (op := .clear n) hn]
    simp
  simp only
  generalize Fm.run env (Fm.boot env b m) (pre ++ .clear n :: post) = s at hh ⊢
  unfold getStoredPreset Fm.boot
  rw [if_neg (by omega), reset_user he hs _ hn]
  simp only [powerOn, hh]

/-- **C33** (store from channel).  The sound of a channel stored as a program is, after a restart, the
sound a program change gives any channel: algorithm, feedback, LFO sensitivities and all operator
parameters other than total levels on the chip are the same. -/
theorem C33_channel_sound_after_restart_partial (env : Fm.Env) (he : env.Ok) (hs : env.sram = true) (b b' : Bool)
    (m : Sram.Mem) (pre post : List Fm.Op) (n : Nat) (hn : n < 128) (k : Nat) (hk : k < 6)
    (hpre : ∀ op ∈ pre, op.Proper) (hpost : ∀ op ∈ post, op.Legal) (hw : ∀ op ∈ post, ¬ op.writes n)
    (c : Nat) (hc : c < 6) :
    let s0 := Fm.run env (Fm.boot env b m) pre
    let s := Fm.run env (Fm.boot env b m) (pre ++ .storeFrom k n :: post)
    let s' := Fm.step env (Fm.boot env b' s.mem) (.program c n)
    { (Synth.chipChannel s'.synth.out c).timbre with stereo := 0 } =
      { (Synth.chipChannel s0.synth.out k).timbre with stereo := 0 } := by
  have h0 := boot_ok he b m
  have h1 := h0.1.run he pre fun o ho => (hpre o ho).1
  have i1 := inv_run he h0.1 h0.2 pre hpre
  have h2 := h1.step he (op := .storeFrom k n) ⟨hk, hn⟩
  have e : Fm.run env (Fm.boot env b m) (pre ++ .storeFrom k n :: post) =
      Fm.run env (Fm.step env (Fm.run env (Fm.boot env b m) pre) (.storeFrom k n)) post := by
    simp only [Fm.run, List.foldl_append, List.foldl_cons]
  have hh : held (Fm.run env (Fm.boot env b m) (pre ++ .storeFrom k n :: post)).mem n =
      some (Synth.extractPreset (Fm.run env (Fm.boot env b m) pre).synth k) := by
    rw [e, run_held he hs h2 post hpost hw, step_held he hs h1 (op := .storeFrom k n) ⟨hk, hn⟩]
    simp
  simp only
  generalize Fm.run env (Fm.boot env b m) (pre ++ .storeFrom k n :: post) = s at hh ⊢
  generalize Fm.run env (Fm.boot env b m) pre = s0 at hh i1 h1 ⊢
  have ok : (Synth.extractPreset s0.synth k).Ok := extract_ok (i1.ch k hk).ok
  have hg : getStoredPreset env (Fm.boot env b' s.mem) n = some (Synth.extractPreset s0.synth k) := by
    unfold getStoredPreset Fm.boot
    rw [if_neg (by omega), reset_user he hs _ hn]
    simp only [powerOn, hh]
  have r := program_timbre (boot_ok he b' s.mem).2 hc ok hg
  simp only [Fm.step]
  rw [r, (i1.ch k hk).chip]
  rfl

private def op0 : Synth.Operator := ⟨1, 2, 31, 1, 5, 1, 2, 3, 7, 20, 9⟩
private def pr : Synth.FmPreset := ⟨5, 3, 2, 6, ⟨op0, { op0 with totalLevel := 127 }, op0, { op0 with am := 0 }⟩⟩
private def dflt : Synth.FmPreset := { pr with algorithm := 1 }
private def envEx : Fm.Env := ⟨List.replicate 128 dflt, List.replicate 128 ⟨pr, 60⟩, fun _ => false, false, true⟩

-- non-vacuity: the memory starts with garbage
example : envEx.Ok := by
  have o : op0.Ok := by constructor <;> decide
  have q : pr.Ok := ⟨by decide, by decide, by decide, by decide,
    ⟨o, by constructor <;> decide, o, by constructor <;> decide⟩⟩
  have d : dflt.Ok := ⟨by decide, by decide, by decide, by decide, q.ops⟩
  refine ⟨by simp [envEx], ?_, by simp [envEx], ?_⟩
  · intro p hp; rw [List.eq_of_mem_replicate hp]; exact d
  · intro p hp; rw [List.eq_of_mem_replicate hp]; exact ⟨q, by decide⟩
example : let s := Fm.run envEx (Fm.boot envEx false fun _ => 0xA5) [.store 3 pr, .store 4 pr, .clear 4]
    getStoredPreset envEx (Fm.boot envEx true s.mem) 3 = some pr ∧
    getStoredPreset envEx (Fm.boot envEx true s.mem) 4 = some dflt := by decide +kernel

end Mdmi.Props
