import Verif.Proofs.Replies

/-!
# Property C108: a reply shows what was received until it is closed
-/

set_option autoImplicit false

namespace Webwire.Replies
open Spec

/-- C108: a reply that is not closed shows the payload that was received. -/
def C108_full : Prop :=
  ∀ (size : Nat) (s : State), Reachable size s → ∀ (r i : Nat) (bs : Bytes) (v : View), (r, i, .has bs) ∈ s.replies →
    Grammar bs v → replyPayload s.pool i = .ok v.payload

/-- Two requests are answered one after the other, with the replies `x` and `y`, by way of one message object. -/
def twoRequests (x y : Bytes) : List Cmd :=
  [.create, .go 0, .getNew, .read 0 .fresh x, .fulfill 0 (.has x), .go 0, .go 0, .go 0, .await 0, .go 0,
    .closeReply 0 0 (.has x),
    .create, .go 0, .getFree 0, .read 0 .fresh y, .fulfill 0 (.has y), .go 0, .go 0, .go 0, .await 1, .go 0]

/-- A reply to request 0. -/
def replyA : Bytes := [191, 1, 0, 0, 0, 0, 0, 0, 0, 65]
/-- A reply to request 1. -/
def replyB : Bytes := [192, 2, 0, 0, 0, 0, 0, 0, 0, 66, 67]

theorem replyB_grammar : Grammar replyB { msgType := 192, ident := [2, 0, 0, 0, 0, 0, 0, 0], payload := [66, 67] } :=
  .reply 192 [2, 0, 0, 0, 0, 0, 0, 0] [66, 67] (by simp) rfl

/-- **C108 is violated**: `Close` of a reply that was closed before closes the reply that its message is in by now, for
which somebody else waited: that one shows an empty payload from then on, and its message is in the pool. -/
theorem C108_violated : ¬ C108_full := by
  intro hf
  have hrun : ∃ s, play (fun _ _ => true) { pool := newSyncPool 16 }
      (twoRequests replyA replyB ++ [.closeAgain 0 0]) = some s ∧
      s.replies = [(1, 0, .has replyB)] ∧ replyPayload s.pool 0 = .ok [] := ⟨_, rfl, rfl, rfl⟩
  obtain ⟨s, hp, hr, hpl⟩ := hrun
  have := hf 16 s (play_reachable (fun _ _ _ => trivial) _ .start hp) 1 0 replyB _ (by rw [hr]; simp) replyB_grammar
  rw [hpl] at this
  cases this

theorem readBytes_success {m m' : Msg} {bs : Bytes} (h : m.readBytes bs = .ok (m', true, none)) :
    bs ≠ [] ∧ bs.length ≤ m.buf.length := by
  constructor
  · rintro rfl
    simp [Msg.readBytes] at h
  · by_contra hc
    unfold Msg.readBytes at h
    rw [if_neg (by omega), if_pos (by omega)] at h
    cases h

/-- What a message shows into which `bs` was read. -/
theorem Right.shown {size : Nat} {m : Msg} {bs : Bytes} {v : View} (h : Right size m (.has bs)) (hg : Grammar bs v) :
    m.shown = v ∧ (v.msgType ≠ 0 → m.payload.encoding = documentedEncoding v.msgType) := by
  obtain ⟨m0, hc, -, hr⟩ := h
  obtain ⟨hne, hfit⟩ := readBytes_success hr
  obtain ⟨m', tp, e, h1, -, h3, -⟩ := C09_accepts_exactly_the_grammar m0 hc bs hne hfit
  rw [hr] at h1
  cases h1
  exact h3 v hg

theorem ReachableIf.got {size : Nat} {ok : State → Label → Prop} {s : State} (h : ReachableIf size ok s) :
    ∀ r i mk, (r, i, mk) ∈ s.replies → .got r (.msg i mk) ∈ s.req.g.log := by
  have mono : ∀ {q q' : Req.State Rep} {l : Req.Label Rep}, Req.Step q l q' → ∀ e ∈ q.g.log, e ∈ q'.g.log := by
    intro q q' l hs e he
    cases hs with
    | thread g g' pre post pcs pc b hact =>
      have ha := Req.acts_of_act hact
      cases ha <;> simp [Req.G.ev, Req.G.deregister] <;> simp at he <;> tauto
    | create g ts => simp [Req.G.ev]; tauto
    | call g ts k rep => simp [Req.G.ev]; tauto
    | await g ts r hr => exact he
  induction h with
  | start => simp
  | step s l s' _ _ hs ih =>
    intro r i mk hr
    cases hs with
    | thread q pc b hst =>
      simp only [List.mem_append] at hr
      rcases hr with hr | hr
      · obtain ⟨sr, sp, srd, srp, scl⟩ := s
        cases hst with
        | thread g g' pre post pcs pc b hact =>
          cases pc with
          | awaiting r' =>
            simp only [gives] at hr
            split at hr
            · simp at hr
            · rename_i hb
              split at hr
              · rename_i k i' mk' hq
                simp only [List.mem_singleton, Prod.mk.injEq] at hr
                obtain ⟨rfl, rfl, rfl⟩ := hr
                simp only [Req.act, hb, hq, Bool.false_eq_true, if_false, Option.some.injEq, Prod.mk.injEq] at hact
                obtain ⟨rfl, rfl⟩ := hact
                simp [Req.G.ev]
              · simp at hr
          | looking c k rep =>
            cases rep <;> simp only [gives] at hr
            · split at hr <;> simp at hr
            · simp at hr
          | _ => simp [gives] at hr
      · exact mono hst _ (ih r i mk hr)
    | create q hst => exact mono hst _ (ih r i mk hr)
    | await q r' hst => exact mono hst _ (ih r i mk hr)
    | fail q k e hst => exact mono hst _ (ih r i mk hr)
    | fulfill q j mk' m _ _ hst => exact mono hst _ (ih r i mk hr)
    | closeReply r' j mk' hj => exact ih r i mk (List.mem_of_mem_erase hr)
    | _ => exact ih r i mk hr

/-- **C108, the part that holds**: unless a reply is closed again while its message is in use for something else, a
reply of request `r` that is not closed shows the bytes that were received, however long ago and whatever other goroutines
did since: all the values the grammar assigns to them. Their identifier is that of the request. -/
theorem C108_partial {size : Nat} {s : State} (h : ReachableIf size CloseOnce s) (r i : Nat) (bs : Bytes) (v : View)
    (hr : (r, i, .has bs) ∈ s.replies) (hg : Grammar bs v) :
    replyPayload s.pool i = .ok v.payload ∧
    (v.msgType ≠ 0 → replyPayloadEncoding s.pool i = .ok (documentedEncoding v.msgType) ∧
      replyPayloadUtf8 s.pool i = payloadUtf8 (documentedEncoding v.msgType) v.payload) ∧
    ∃ q c, s.req.g.reqs[r]? = some q ∧ q.ident = v.ident ∧ .delivered c r ∈ s.req.g.log ∧
      .called c v.ident (.msg i (.has bs)) ∈ s.req.g.log := by
  have hi := h.inv
  obtain ⟨m, hm, hright⟩ := hi.right (i, .has bs)
    (by simp only [inUse, List.mem_append, List.mem_map]; exact .inr ⟨_, hr, rfl⟩)
  obtain ⟨hs, he⟩ := hright.shown hg
  have hpl : m.payload.data.view m.buf = v.payload := congrArg View.payload hs
  simp only at hm
  obtain ⟨q, c, hq, hc, hd⟩ := Req.C50_right_reply hi.req r _ (h.got r i _ hr)
  obtain ⟨m', hr', hk⟩ := hi.called c q.ident i _ hc
  have hid : q.ident = v.ident := hk.symm.trans (congrArg View.ident (hr'.shown hg).1)
  refine ⟨by simp [replyPayload, hm, hpl], ?_, q, c, hq, hid, hd, hid ▸ hc⟩
  intro h0
  exact ⟨by simp [replyPayloadEncoding, hm, he h0], by simp [replyPayloadUtf8, hm, hpl, he h0]⟩

/-- C108, for these executions: a message is in one place only. Two replies never share one, and the message of a reply that is not
closed is neither in the pool nor with the reader. Missing: replies that are closed twice, for which it is false. -/
theorem C108_one_place_partial {size : Nat} {s : State} (h : ReachableIf size CloseOnce s) :
    ((inUse s).map Prod.fst).Nodup ∧ (∀ x ∈ inUse s, x.1 ∉ s.pool.free) ∧
    (∀ r i mk r' mk', (r, i, mk) ∈ s.replies → (r', i, mk') ∈ s.replies → r = r' ∧ mk = mk') ∧
    ∀ r i mk mk', (r, i, mk) ∈ s.replies → (i, mk') ∉ s.reading := by
  have hi := h.inv
  have hnd := hi.nodup
  refine ⟨hnd, ?_, ?_, ?_⟩
  · intro x hx hf
    obtain ⟨held, hh, hp⟩ := hi.hist
    exact (C16_never_handed_out_twice size s.pool held hh).2.2 x.1 hf (hp.mem_iff.mpr (List.mem_map.mpr ⟨x, hx, rfl⟩))
  · intro r i mk r' mk' h1 h2
    simp only [inUse, List.map_append, List.map_map] at hnd
    have hn := (List.nodup_append.mp hnd).2.1
    have := List.inj_on_of_nodup_map hn h1 h2 rfl
    simp only [Prod.mk.injEq] at this
    exact ⟨this.1, this.2.2⟩
  · intro r i mk mk' h1 h2
    simp only [inUse, List.map_append, List.map_map] at hnd
    refine (List.nodup_append.mp hnd).2.2 i ?_ i (List.mem_map.mpr ⟨_, h1, rfl⟩) rfl
    simp only [List.mem_append]
    exact .inl (.inl (List.mem_map.mpr ⟨_, h2, rfl⟩))

/-- C108: `Fulfill` reads the identifier of its message twice; for these executions it is the same both times. (This
justifies that the model reads it once.) -/
theorem C108_identifier {size : Nat} {s : State} (h : ReachableIf size CloseOnce s) (c r i : Nat) (k : Bytes) (mk : Mark)
    (hm : .removing c r k (.msg i mk) ∈ s.req.threads ∨ .looking c k (.msg i mk) ∈ s.req.threads) :
    ∃ m, s.pool.heap[i]? = some m ∧ m.ident = k := by
  rcases hm with hm | hm
  · exact h.inv.removing c r k i mk hm
  · exact h.inv.looking c k i mk hm

/-- C108: closing a reply gives its message back: it is in the pool then, in use nowhere, and shows nothing of the reply
to whom it is handed out next. -/
theorem C108_released {size : Nat} {s s' : State} (h : ReachableIf size CloseOnce s) (r i : Nat) (bs : Bytes)
    (hr : ∀ mk, (r, i, mk) ∈ s.replies → mk = .has bs) (hs : Step s (.closeReply r i) s') :
    i ∈ s'.pool.free ∧ (∀ mk, (i, mk) ∉ inUse s') ∧ ∃ m, s'.pool.heap[i]? = some m ∧ Clean m := by
  have h' : ReachableIf size CloseOnce s' := .step s (.closeReply r i) s' h trivial hs
  cases hs with
  | closeReply _ _ mk hi =>
    have := hr mk hi
    subst this
    obtain ⟨m, hm, hright⟩ := h.inv.right (i, .has bs)
      (by simp only [inUse, List.mem_append, List.mem_map]; exact .inr ⟨_, hi, rfl⟩)
    simp only at hm
    obtain ⟨m0, hc, -, hrd⟩ := hright
    have hne : m.isEmpty = false := by
      obtain ⟨h1, h2⟩ := readBytes_success hrd
      rw [readBytes_eq h1 h2] at hrd
      obtain ⟨a, b, e, hp, -, hl⟩ :=
        parse_returns ({ m0 with buf := goCopy m0.buf bs, len := bs.length } : Msg) (by simp [goCopy_le _ _ h2])
      rw [hp] at hrd
      simp only [Except.ok.injEq, Prod.mk.injEq] at hrd
      have hpos := List.length_pos_of_ne_nil h1
      simp [Msg.isEmpty, ← hrd.1, hl]
      omega
    have hfree : i ∈ (replyClose s.pool i).free := by simp [replyClose, Pool.close, hm, Msg.close, hne]
    obtain ⟨held, hh, hp⟩ := h'.inv.hist
    refine ⟨hfree, ?_, ?_⟩
    · intro mk hmk
      exact (C108_one_place_partial h').2.1 _ hmk hfree
    · obtain ⟨m', h1, h2, -⟩ := (C15_get_is_clean size _ held hh).2 i hfree
      exact ⟨m', h1, h2⟩

/-- Two requests; the second reply, in the message that the first one was in, is not closed yet. -/
example : ∃ s : State, ReachableIf 16 CloseOnce s ∧ (1, 0, .has replyB) ∈ s.replies ∧
    replyPayload s.pool 0 = .ok [66, 67] ∧ (∃ s', Step s (.closeReply 1 0) s') := by
  have hrun : ∃ s, play closeOnce { pool := newSyncPool 16 } (twoRequests replyA replyB) = some s ∧
      s.replies = [(1, 0, .has replyB)] := ⟨_, rfl, rfl⟩
  obtain ⟨s, hp, hr⟩ := hrun
  have h := play_reachable closeOnce_ok _ .start hp
  exact ⟨s, h, by rw [hr]; simp, (C108_partial h 1 0 replyB _ (by rw [hr]; simp) replyB_grammar).1, _,
    .closeReply s 1 0 (.has replyB) (by rw [hr]; simp)⟩

end Webwire.Replies
