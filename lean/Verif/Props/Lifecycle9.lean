import Verif.Props.Accounts

/-!
# C104: what a hook holds up on its connection
-/

set_option autoImplicit false

namespace Webwire.Life

namespace Spec

/-- The event is one of the connection. -/
def Of (c : ConnId) : LEv → Prop
  | .arrived c' _ | .dropped c' _ | .refused c' _ | .start c' _ | .finish c' _ | .disconnected c' => c' = c
  | .stop | .transportDown => False

end Spec

open _root_.Webwire.Life.Spec

/-- What C104 asks for: from the start of a handler to its end nothing else happens on the connection. -/
def C104_full : Prop := ∀ s, Reachable s → ∀ c m l1 l2, s.g.log = l1 ++ .start c m :: l2 → .finish c m ∉ l2 →
  ∀ e ∈ l2, ¬ Of c e

/-- **C104 is violated** on connections with a concurrency limit of more than one, and on those without: the handler of the
first of two requests runs, the second one is received, and its handler starts and ends. -/
theorem C104_violated : ¬ C104_full := by
  intro hf
  obtain ⟨s, hp, hl⟩ : ∃ s, play anyStep {} ([.connect 1 2, recv 0 (exReq 1)] ++ steps 0 6 ++ [recv 1 (exReq 2)] ++ steps 1 7) =
      some s ∧ s.g.log = [.arrived 1 (exReq 1)] ++ .start 1 (exReq 1) :: [.arrived 1 (exReq 2), .start 1 (exReq 2),
        .finish 1 (exReq 2)] := ⟨_, rfl, rfl⟩
  exact hf s (play_any hp) 1 (exReq 1) _ _ hl (by decide) (.arrived 1 (exReq 2)) (by simp) rfl

/-- Handlers on their own goroutines are those of signals and requests. -/
theorem Acts.apart {g g' : G} {ch : Choice} {pc : PC} {pcs : List PC} (h : Acts g ch pc g' pcs) :
    ∀ c m, .starting c m false ∈ pcs ∨ .running c m false ∈ pcs →
      pc = .starting c m false ∨ pc = .running c m false ∨ m.kind ≠ .session := by
  intro c m hm
  cases h <;> simp [resume, closed] at hm <;> grind

theorem ReachableIf.apart {ok : State → Label → Prop} {s : State} (h : ReachableIf ok s) (c : ConnId) (m : LMsg)
    (hm : .starting c m false ∈ s.threads ∨ .running c m false ∈ s.threads) : m.kind ≠ .session := by
  induction h with
  | start => simp at hm
  | step s l s' hr ho hs ih =>
    cases hs with
    | thread g g' pre post pcs pc ch hc hact =>
      have ha := (acts_of_act hact).apart c m
      simp only [List.mem_append, List.mem_cons] at hm ih
      grind
    | connect g ts i limit hc hu => exact ih (by simpa using hm)
    | close g ts i hc hu => exact ih (by simpa using hm)
    | shutdown g ts hc => exact ih (by simpa using hm)

/-- Who makes an event happen. -/
theorem Acts.who {g g' : G} {ch : Choice} {pc : PC} {pcs : List PC} (h : Acts g ch pc g' pcs) (e : LEv)
    (he : g'.log = g.log ++ [e]) (c : ConnId) (hc : Of c e) :
    (pc.isReader c = true ∧ (∀ m, .running c m true = pc → e = .finish c m)) ∨
      ∃ m, (pc = .starting c m false ∧ e = .start c m) ∨ (pc = .running c m false ∧ e = .finish c m) := by
  cases h <;> simp only [G.ev, G.upd, G.crash, unlinked, List.append_cancel_left_eq, List.cons.injEq, and_true,
    List.self_eq_append_right, List.cons_ne_nil] at he <;> (try contradiction) <;> subst he <;> simp only [Of] at hc <;>
    (try contradiction) <;> subst hc
  case begin c m inl => cases inl <;> simp [PC.isReader]
  case finish c m inl => cases inl <;> simp [PC.isReader]
  all_goals simp [PC.isReader]

/-- While the reader is in a handler it is there, and what happens on the connection is done by handlers on their own
goroutines. -/
theorem ReachableIf.inside {ok : State → Label → Prop} {s : State} (h : ReachableIf ok s) (c : ConnId) (m : LMsg)
    (hm : m.kind = .session ∨ (0 ≤ (s.g.conns c).limit ∧ (s.g.conns c).limit ≤ 1)) (l1 l2 : List LEv)
    (hl : s.g.log = l1 ++ .start c m :: l2) (hf : .finish c m ∉ l2) :
    .running c m true ∈ s.threads ∧ ∀ e ∈ l2, Of c e → ((∃ m', e = .start c m') ∨ ∃ m', e = .finish c m') ∧
      ¬ (0 ≤ (s.g.conns c).limit ∧ (s.g.conns c).limit ≤ 1) := by
  induction h generalizing l2 with
  | start => simp at hl
  | step s l s' hr ho hs ih =>
    have hi := ReachableIf.inv hr
    have hap := ReachableIf.apart hr c m
    cases hs with
    | thread g g' pre post pcs pc ch hc hact =>
      have ha := acts_of_act hact
      simp only at hl hm hf ih hi hap ⊢
      rw [(ha.static c).2] at hm ⊢
      have hdet : 0 ≤ (g.conns c).limit ∧ (g.conns c).limit ≤ 1 → pc.detached c = false := by
        intro hlim
        have := List.countP_eq_zero.mp (hi.detached c hlim.1 hlim.2) pc (by simp)
        simpa using this
      have hold : ∀ l3, g.log = l1 ++ .start c m :: l3 → .finish c m ∉ l3 → g'.log = g.log ∨ (∃ e, g'.log = g.log ++ [e] ∧
          (Of c e → e ≠ .finish c m)) → .running c m true ∈ pre ++ (pcs ++ post) ∧ ∀ e ∈ l3, Of c e →
            ((∃ m', e = .start c m') ∨ ∃ m', e = .finish c m') ∧ ¬ (0 ≤ (g.conns c).limit ∧ (g.conns c).limit ≤ 1) := by
        intro l3 h1 h2 h3
        obtain ⟨h4, h5⟩ := ih hm l3 h1 h2
        refine ⟨?_, h5⟩
        simp only [List.mem_append, List.mem_cons] at h4 ⊢
        rcases h4 with h4 | h4 | h4
        · exact .inl h4
        · subst h4
          exfalso
          cases ha
          rcases h3 with h3 | ⟨e, h3, h6⟩
          · simp [G.ev] at h3
          · simp only [G.ev, List.append_cancel_left_eq, List.cons.injEq, and_true] at h3
            subst h3
            exact h6 rfl rfl
        · exact .inr (.inr h4)
      rcases ha.log with he | ⟨e, he⟩
      · exact hold l2 (he ▸ hl) hf (.inl he)
      · rw [he] at hl
        rcases append_eq_split hl with ⟨rfl, rfl, rfl⟩ | ⟨l3, rfl, hl3⟩
        · refine ⟨?_, by simp⟩
          cases ha <;> simp only [G.ev, G.upd, G.crash, unlinked, List.append_cancel_left_eq, List.cons.injEq, and_true,
            List.self_eq_append_right, List.cons_ne_nil, reduceCtorEq] at he
          case begin c' m' inl =>
            simp only [LEv.start.injEq] at he
            obtain ⟨rfl, rfl⟩ := he
            cases inl with
            | true => simp
            | false =>
              exfalso
              rcases hm with hk | hlim
              · exact hap (.inl (by simp)) hk
              · simpa [PC.detached] using hdet hlim
        · simp only [List.mem_append, List.mem_singleton, not_or] at hf
          have hne : e ≠ .finish c m := fun hx => hf.2 hx.symm
          obtain ⟨h1, h2⟩ := hold l3 hl3 hf.1 (.inr ⟨e, he, fun _ => hne⟩)
          refine ⟨h1, fun x hx hof => ?_⟩
          rcases List.mem_append.mp hx with hx | hx
          · exact h2 x hx hof
          · obtain rfl : x = e := by simpa using hx
            rcases ha.who x he c hof with ⟨hrd, hfin⟩ | ⟨m', hd⟩
            · exfalso
              obtain ⟨h3, -⟩ := ih hm l3 hl3 hf.1
              have hone := hi.reader c
              simp only [List.countP_append, List.countP_cons, hrd, if_true] at hone
              simp only [List.mem_append, List.mem_cons] at h3
              rcases h3 with h3 | h3 | h3
              · have := List.countP_pos_iff.mpr ⟨_, h3, (by simp [PC.isReader] : PC.isReader c (.running c m true) = true)⟩
                omega
              · exact hne (hfin m h3)
              · have := List.countP_pos_iff.mpr ⟨_, h3, (by simp [PC.isReader] : PC.isReader c (.running c m true) = true)⟩
                omega
            · refine ⟨?_, fun hlim => ?_⟩
              · rcases hd with ⟨-, hd⟩ | ⟨-, hd⟩
                · exact .inl ⟨m', hd⟩
                · exact .inr ⟨m', hd⟩
              · have := hdet hlim
                rcases hd with ⟨rfl, -⟩ | ⟨rfl, -⟩ <;> simp [PC.detached] at this
    | connect g ts i limit hc hu =>
      have hne : c ≠ i := by
        rintro rfl
        have h2 := hi.unused c hu
        have h3 := (ih (.inr (by
          have h4 : (g.conns c).limit = 0 := by rw [(h2.1 : g.conns c = {})]
          simp [h4])) l2 hl hf).1
        simpa [PC.isOn] using List.countP_eq_zero.mp h2.2 _ h3
      have hlim : ((connected g i limit).conns c).limit = (g.conns c).limit := by simp [hne]
      simp only [hlim] at hm ⊢
      obtain ⟨h1, h2⟩ := ih hm l2 hl hf
      exact ⟨by simp only [List.mem_cons]; exact .inr h1, h2⟩
    | close g ts i hc hu =>
      obtain ⟨h1, h2⟩ := ih hm l2 hl hf
      exact ⟨by simp only [List.mem_cons]; exact .inr h1, h2⟩
    | shutdown g ts hc =>
      obtain ⟨h1, h2⟩ := ih hm l2 hl hf
      exact ⟨by simp only [List.mem_cons]; exact .inr h1, h2⟩

/-- C104 on connections that handle one message at a time (limit 0 or 1): while a handler runs, nothing is received on the connection,
no other handler of it starts, and it does not end. Missing: connections with another limit, for which it is false. -/
theorem C104_serial_partial (s : State) (h : Reachable s) (c : ConnId) (h0 : 0 ≤ (s.g.conns c).limit)
    (h1 : (s.g.conns c).limit ≤ 1) (m : LMsg) (l1 l2 : List LEv) (hl : s.g.log = l1 ++ .start c m :: l2)
    (hf : .finish c m ∉ l2) : ∀ e ∈ l2, ¬ Of c e := by
  intro e he ho
  exact ((h.inside c m (.inr ⟨h0, h1⟩) l1 l2 hl hf).2 e he ho).2 ⟨h0, h1⟩

/-- C104 for requests to restore or close a session, on connections with any limit: while one of them is handled (and
`OnSessionLookup` or `OnSessionClosed` called) nothing is received on the connection, and it does not end. Handlers of messages
that were received before may start and end. -/
theorem C104_session_partial (s : State) (h : Reachable s) (c : ConnId) (m : LMsg) (hm : m.kind = .session) (l1 l2 : List LEv)
    (hl : s.g.log = l1 ++ .start c m :: l2) (hf : .finish c m ∉ l2) :
    ∀ e ∈ l2, Of c e → ∃ m', .arrived c m' ∈ l1 ∧ (e = .start c m' ∨ e = .finish c m') := by
  intro e he ho
  have hin := (h.inside c m (.inl hm) l1 l2 hl hf).2
  have harr : ∀ m', .arrived c m' ∈ s.g.log → .arrived c m' ∈ l1 := by
    intro m' hx
    rw [hl] at hx
    simp only [List.mem_append, List.mem_cons, reduceCtorEq, false_or] at hx
    rcases hx with hx | hx
    · exact hx
    · rcases (hin _ hx rfl).1 with ⟨m2, h2⟩ | ⟨m2, h2⟩ <;> cases h2
  have hst : ∀ m', .start c m' ∈ s.g.log → .arrived c m' ∈ s.g.log := by
    intro m' hx
    have h1 := h.accounted c m' (h.kindInv.log c m' hx)
    have h2 := List.count_pos_iff.mpr hx
    exact List.count_pos_iff.mp (by omega)
  have hmem : ∀ x ∈ l2, x ∈ s.g.log := fun x hx => by rw [hl]; simp [hx]
  rcases (hin e he ho).1 with ⟨m', rfl⟩ | ⟨m', rfl⟩
  · exact ⟨m', harr m' (hst m' (hmem _ he)), .inl rfl⟩
  · refine ⟨m', harr m' (hst m' ?_), .inr rfl⟩
    have h1 := h.inv.runsMsg c m'
    have h2 := List.count_pos_iff.mpr (hmem _ he)
    exact List.count_pos_iff.mp (by omega)

/-- A connection without a limit: while its session is restored, the handler of a signal received before starts and ends; on a
connection with limit 1 a request is being handled, and the connection has been closed meanwhile by somebody. -/
example : ∃ s, Reachable s ∧ (s.g.conns 1).limit = -1 ∧ (s.g.conns 2).limit = 1 ∧ (s.g.conns 2).active = false ∧
    s.g.log = [.arrived 1 ⟨.signal, 1⟩, .arrived 1 ⟨.session, 2⟩] ++ .start 1 ⟨.session, 2⟩ ::
      [.start 1 ⟨.signal, 1⟩, .finish 1 ⟨.signal, 1⟩, .arrived 2 (exReq 3), .start 2 (exReq 3)] := by
  obtain ⟨s, hp, h⟩ : ∃ s, play anyStep {} ([.connect 1 (-1), recv 0 ⟨.signal, 1⟩] ++ steps 0 5 ++ [recv 1 ⟨.session, 2⟩] ++
      steps 1 6 ++ steps 0 5 ++ [.connect 2 1, recv 0 (exReq 3)] ++ steps 0 6 ++ [.close 2, .go 0]) = some s ∧
      (s.g.conns 1).limit = -1 ∧ (s.g.conns 2).limit = 1 ∧ (s.g.conns 2).active = false ∧
    s.g.log = [.arrived 1 ⟨.signal, 1⟩, .arrived 1 ⟨.session, 2⟩] ++ .start 1 ⟨.session, 2⟩ ::
      [.start 1 ⟨.signal, 1⟩, .finish 1 ⟨.signal, 1⟩, .arrived 2 (exReq 3), .start 2 (exReq 3)] := ⟨_, rfl, rfl, rfl, rfl, rfl⟩
  exact ⟨s, play_any hp, h⟩

end Webwire.Life
