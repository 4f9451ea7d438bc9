import Verif.Model.Options
import Verif.Props.Wire2

/-!
# Properties C18 and C19 (the configuration message)
-/

set_option autoImplicit false

namespace Webwire
open Spec

/-- closed form of `Prepare` when the default session manager can be created or is not needed -/
def prepared (op : ServerOptions) : ServerOptions where
  sessions := if op.sessions = 0 then 2 else op.sessions
  sessionManager := if (op.sessions = 0 ∨ op.sessions = 2) ∧ op.sessionManager = none then some .dflt
    else op.sessionManager
  sessionKeyGenerator := if (op.sessions = 0 ∨ op.sessions = 2) ∧ op.sessionKeyGenerator = none then some .dflt
    else op.sessionKeyGenerator
  sessionInfoParser := if op.sessionInfoParser = none then some .dflt else op.sessionInfoParser
  maxSessionConnections := op.maxSessionConnections
  warnLog := if op.warnLog = none then some .dflt else op.warnLog
  errorLog := if op.errorLog = none then some .dflt else op.errorLog
  readTimeout := if op.readTimeout < 1000000000 then 60000000000 else op.readTimeout
  subProtocolName := op.subProtocolName
  messageBufferSize := if op.messageBufferSize = 0 then 8192 else op.messageBufferSize

theorem prepare_eq (op : ServerOptions) (mk : Go Unit) (hmk : mk = .ok () ∨ op.sessionManager ≠ none) :
    op.prepare mk = .ok (prepared op,
      if op.messageBufferSize ≠ 0 ∧ op.messageBufferSize < 32 then some "message buffer size too small" else none) := by
  have hd : ∀ s : Int, (s = 2 ↔ op.sessions = 0 ∨ op.sessions = 2) →
      defaultManager mk s op.sessionManager = .ok (prepared op).sessionManager := by
    intro s hs
    unfold defaultManager prepared
    simp only [Enabled]
    rcases hmk with rfl | hne
    · by_cases h1 : s = 2 ∧ op.sessionManager = none
      · rw [if_pos h1, if_pos ⟨hs.mp h1.1, h1.2⟩]; rfl
      · rw [if_neg h1, if_neg (fun hc => h1 ⟨hs.mpr hc.1, hc.2⟩)]; rfl
    · rw [if_neg (fun hc => hne hc.2), if_neg (fun hc => hne hc.2)]; rfl
  have e : (if op.sessions = 0 then (2 : Int) else op.sessions) = 2 ↔ (op.sessions = 0 ∨ op.sessions = 2) := by
    split_ifs <;> simp_all
  unfold ServerOptions.prepare
  simp only [OptionUnset, Enabled, second]
  rw [hd _ e]
  simp only [bind, Except.bind, pure, Except.pure]
  simp only [prepared, e, Int.one_mul]
  by_cases h7 : op.messageBufferSize = 0
  · simp [h7]
  · by_cases h8 : op.messageBufferSize < 32
    · simp [h7, h8]
    · simp [h7, h8]

namespace Spec

/-- Options a server can run with. -/
structure Runnable (op : ServerOptions) : Prop where
  sessionsSet : op.sessions ≠ OptionUnset
  manager : op.sessions = Enabled → op.sessionManager ≠ none
  keyGenerator : op.sessions = Enabled → op.sessionKeyGenerator ≠ none
  parser : op.sessionInfoParser ≠ none
  warnLog : op.warnLog ≠ none
  errorLog : op.errorLog ≠ none
  readTimeout : 1000000000 ≤ op.readTimeout
  bufferSize : 32 ≤ op.messageBufferSize.toNat

/-- Every setting of `a` that was made explicitly and validly is the same in `b`. -/
structure Keeps (a b : ServerOptions) : Prop where
  sessions : a.sessions ≠ OptionUnset → b.sessions = a.sessions
  sessionsDefault : a.sessions = OptionUnset → b.sessions = Enabled
  manager : a.sessionManager ≠ none → b.sessionManager = a.sessionManager
  keyGenerator : a.sessionKeyGenerator ≠ none → b.sessionKeyGenerator = a.sessionKeyGenerator
  parser : a.sessionInfoParser ≠ none → b.sessionInfoParser = a.sessionInfoParser
  maxConns : b.maxSessionConnections = a.maxSessionConnections
  warnLog : a.warnLog ≠ none → b.warnLog = a.warnLog
  errorLog : a.errorLog ≠ none → b.errorLog = a.errorLog
  readTimeout : 1000000000 ≤ a.readTimeout → b.readTimeout = a.readTimeout
  subProtocolName : b.subProtocolName = a.subProtocolName
  bufferSize : 32 ≤ a.messageBufferSize.toNat → b.messageBufferSize = a.messageBufferSize

end Spec

/-! ## C18 -/

/-- C18: `Prepare` fails exactly if `0 < MessageBufferSize < 32`; otherwise the options become runnable and
all explicit valid settings are kept. (It panics only if the default session directory is needed and cannot
be created, `C18_panics_only_without_directory`.) -/
theorem C18_prepare (op : ServerOptions) (mk : Go Unit) (hmk : mk = .ok () ∨ op.sessionManager ≠ none) :
    ∃ op' err, op.prepare mk = .ok (op', err) ∧
      (err ≠ none ↔ 0 < op.messageBufferSize.toNat ∧ op.messageBufferSize.toNat < 32) ∧
      (err = none → Runnable op') ∧ Keeps op op' ∧
      (op.sessions ∈ [OptionUnset, Disabled, Enabled] → op'.sessions = Disabled ∨ op'.sessions = Enabled) := by
  have hlt : op.messageBufferSize < 32 ↔ op.messageBufferSize.toNat < 32 := UInt32.lt_iff_toNat_lt
  have hz : op.messageBufferSize = 0 ↔ op.messageBufferSize.toNat = 0 := by
    rw [← UInt32.toNat_inj]; rfl
  refine ⟨_, _, prepare_eq op mk hmk, ?_, ?_, ?_, ?_⟩
  · split_ifs with h
    · rw [hlt, ne_eq, hz] at h
      simp; omega
    · rw [hlt, ne_eq, hz] at h
      simp; omega
  · intro he
    have hb : ¬ (op.messageBufferSize ≠ 0 ∧ op.messageBufferSize < 32) := by
      intro hc; rw [if_pos hc] at he; cases he
    rw [hlt, ne_eq, hz] at hb
    refine ⟨?_, ?_, ?_, ?_, ?_, ?_, ?_, ?_⟩ <;>
      simp only [prepared, OptionUnset, Enabled]
    · split_ifs <;> simp_all
    · intro hs
      split_ifs at hs ⊢ <;> simp_all
    · intro hs
      split_ifs at hs ⊢ <;> simp_all
    · split_ifs <;> simp_all
    · split_ifs <;> simp_all
    · split_ifs <;> simp_all
    · split_ifs <;> omega
    · split_ifs with h
      · show 32 ≤ 8192
        omega
      · rw [hz] at h; omega
  · refine ⟨?_, ?_, ?_, ?_, ?_, rfl, ?_, ?_, ?_, rfl, ?_⟩ <;>
      simp only [prepared, OptionUnset, Enabled] <;> intro h
    · rw [if_neg h]
    · rw [if_pos h]
    · rw [if_neg (fun hc => h hc.2)]
    · rw [if_neg (fun hc => h hc.2)]
    · rw [if_neg h]
    · rw [if_neg h]
    · rw [if_neg h]
    · rw [if_neg (by omega)]
    · rw [if_neg (by rw [hz]; omega)]
  · intro h
    simp only [OptionUnset, Disabled, Enabled, List.mem_cons, List.not_mem_nil, or_false] at h
    simp only [prepared, Disabled, Enabled]
    rcases h with h | h | h <;> simp [h]

/-- C18: a second `Prepare` succeeds and changes nothing. -/
theorem C18_prepare_idempotent (op op' : ServerOptions) (mk mk' : Go Unit)
    (h : op.prepare mk = .ok (op', none)) (hmk : mk = .ok () ∨ op.sessionManager ≠ none) :
    op'.prepare mk' = .ok (op', none) := by
  obtain ⟨o, e, h1, -, hr, -⟩ := C18_prepare op mk hmk
  rw [h] at h1
  simp only [Except.ok.injEq, Prod.mk.injEq] at h1
  obtain ⟨rfl, rfl⟩ := h1
  have hr := hr rfl
  obtain ⟨s, sm, kg, sp, mc, wl, el, rt, sub, bs⟩ := op'
  obtain ⟨r1, r2, r3, r4, r5, r6, r7, r8⟩ := hr
  simp only [OptionUnset, Enabled] at *
  have hlt : ¬ bs < 32 := by
    rw [UInt32.lt_iff_toNat_lt]; show ¬ bs.toNat < 32; omega
  have hz : ¬ bs = 0 := by
    rintro rfl; exact absurd r8 (by decide)
  unfold ServerOptions.prepare defaultManager
  have hm : ¬ (s = 2 ∧ sm = none) := fun hc => r2 hc.1 hc.2
  have hk : ¬ (s = 2 ∧ kg = none) := fun hc => r3 hc.1 hc.2
  have hrt : ¬ rt < 1 * 1000000000 := by omega
  simp only [OptionUnset, Enabled, second, if_neg r1, if_neg hm, if_neg hk, if_neg r4, if_neg hrt, if_neg r5,
    if_neg r6, if_neg hz, if_neg hlt, bind, Except.bind, pure, Except.pure]

/-- C18: `Prepare` panics only if sessions are on, no session manager was given, and the default session
directory cannot be created. -/
theorem C18_panics_only_without_directory (op : ServerOptions) (mk : Go Unit) (w : Stop)
    (h : op.prepare mk = .error w) :
    mk = .error w ∧ op.sessionManager = none ∧ op.sessions ∈ [OptionUnset, Enabled] := by
  by_cases hmk : mk = .ok () ∨ op.sessionManager ≠ none
  · rw [prepare_eq op mk hmk] at h; cases h
  · push Not at hmk
    obtain ⟨h1, h2⟩ := hmk
    cases mk with
    | ok u => exact absurd rfl h1
    | error w' =>
      have hd : ∀ s : Int, (s = 2 ↔ op.sessions = 0 ∨ op.sessions = 2) →
          defaultManager (.error w') s op.sessionManager =
            if op.sessions = 0 ∨ op.sessions = 2 then .error w' else .ok op.sessionManager := by
        intro s hs
        unfold defaultManager
        by_cases h1 : s = 2
        · rw [if_pos ⟨h1, h2⟩, if_pos (hs.mp h1)]; rfl
        · rw [if_neg (fun hc => h1 hc.1), if_neg (fun hc => h1 (hs.mpr hc))]; rfl
      have e : (if op.sessions = 0 then (2 : Int) else op.sessions) = 2 ↔ (op.sessions = 0 ∨ op.sessions = 2) := by
        split_ifs <;> simp_all
      unfold ServerOptions.prepare at h
      simp only [OptionUnset, Enabled, second] at h ⊢
      rw [hd _ e] at h
      simp only [bind, Except.bind, pure, Except.pure] at h
      by_cases hs : op.sessions = 0 ∨ op.sessions = 2
      · rw [if_pos hs] at h
        simp only [Except.error.injEq] at h
        exact ⟨by rw [h], h2, by simpa using hs⟩
      · rw [if_neg hs] at h
        dsimp only at h
        split_ifs at h

/-- C18, non-vacuity: default options, and options that fail. -/
example : (∃ op', ({} : ServerOptions).prepare (.ok ()) = .ok (op', none) ∧ Runnable op') ∧
    (∃ op', ({ messageBufferSize := 31 } : ServerOptions).prepare (.ok ()) =
      .ok (op', some "message buffer size too small")) := by
  refine ⟨⟨_, rfl, ?_⟩, _, rfl⟩
  exact ⟨by decide, by decide, by decide, by decide, by decide, by decide, by decide, by decide⟩

end Webwire
