import Verif.Proofs.SessionStore2
import Verif.Props.SessionKey

/-!
# The file session manager (C45-C48, C62)
-/

set_option autoImplicit false

namespace Webwire.Store

variable {I : Type}

/-! ## An encoding to try things with

Like JSON it is longer for some times than for others, and a part of it means nothing. -/

/-- Encode both times in unary. -/
def toyMarshal (f : SessionFile Unit) : Bytes :=
  List.replicate f.creation 1 ++ 0 :: (List.replicate f.lastLookup 1 ++ [0])

/-- Decode. -/
def toyUnmarshal (b : Bytes) : Option (SessionFile Unit) :=
  let c := (b.takeWhile (· == 1)).length
  let l := ((b.drop (c + 1)).takeWhile (· == 1)).length
  if b = toyMarshal ⟨c, l, ()⟩ then some ⟨c, l, ()⟩ else none

theorem takeWhile_ones (n : Nat) (b : Bytes) : (List.replicate n 1 ++ 0 :: b).takeWhile (· == 1) = List.replicate n 1 := by
  induction n with
  | zero => simp
  | succ n ih => simp [List.replicate_succ, ih]

theorem toy_faithful (f : SessionFile Unit) : toyUnmarshal (toyMarshal f) = some f := by
  obtain ⟨c, l, ⟨⟩⟩ := f
  have h1 : ((toyMarshal ⟨c, l, ()⟩).takeWhile (· == 1)).length = c := by
    rw [toyMarshal, takeWhile_ones, List.length_replicate]
  have h2 : ((toyMarshal ⟨c, l, ()⟩).drop (c + 1)) = List.replicate l 1 ++ [0] := by
    simp [toyMarshal, List.drop_append]
  simp only [toyUnmarshal, h1, h2, takeWhile_ones, List.length_replicate, if_true]

/-- "/s" is the directory; all paths are usable. -/
def toy : Env Unit := ⟨[47, 115], fun f => some (toyMarshal f), toyUnmarshal, fun _ => true, fun _ => true⟩

theorem toy_storable (f : SessionFile Unit) : Storable toy f := fun l => ⟨_, rfl, toy_faithful _⟩

/-! ## Where files are -/

/-- C46: every key leads to a file directly inside the directory. -/
def C46_full : Prop := ∀ dir key, dir ≠ [] → Inside dir (filePath dir key)

/-- C46 does not hold: "../e" in "/s" leads to "/e.wwrsess". -/
theorem C46_violated : ¬ C46_full := by
  intro h
  obtain ⟨name, _, _, hc⟩ := h [47, 115] [46, 46, 47, 101] (by simp)
  have e : (filePath [47, 115] [46, 46, 47, 101]).leads [] = [[101] ++ suffix] := by decide
  have e' : leads [] [47, 115] = [[115]] := by decide
  have := hc []
  rw [e, e'] at this
  simp at this

/-- C46 does not hold: a session under "../e" in "/s" is written to "/e.wwrsess" (lookups use the same path). -/
theorem C46_files_violated : ∃ s, Reachable toy s ∧ ∃ p i, s.g.names p = some i ∧ ¬ Inside toy.dir p := by
  have h : ∃ s, play toy (fun _ _ => true) {} [.create [46, 46, 47, 101] ⟨1, 2, ()⟩, .go 0] = some s ∧
      s.g.names ⟨true, [[101] ++ suffix]⟩ = some 0 := ⟨_, rfl, rfl⟩
  obtain ⟨s, hp, hn⟩ := h
  refine ⟨s, play_reachable (fun _ _ _ => trivial) _ .start hp, _, _, hn, ?_⟩
  rintro ⟨name, _, _, hc⟩
  have e : Path.leads [] ⟨true, [[101] ++ suffix]⟩ = [[101] ++ suffix] := by decide
  have e' : leads [] toy.dir = [[115]] := by decide
  have := hc []
  rw [e, e'] at this
  simp at this

/-- C46 for keys without slashes. Missing: keys with slashes, for which it is false. -/
theorem C46_partial (dir key : Bytes) (hk : 47 ∉ key) : Inside dir (filePath dir key) := by
  refine ⟨key ++ suffix, ?_, by simp [suffix], fun cwd => ?_⟩
  · simp only [List.mem_append, not_or]
    exact ⟨hk, suffix_noSlash⟩
  · rw [filePath_plain dir key hk, Path.leads, List.foldl_append, ← clean_leads, Path.leads]
    have hl : (key ++ suffix).length ≥ 8 := by simp [suffix]
    have h1 : ¬ (key ++ suffix = [] ∨ key ++ suffix = [46]) := by
      rintro (h | h) <;> rw [h] at hl <;> simp at hl
    have h2 : ¬ (key ++ suffix = [46, 46]) := by intro h; rw [h] at hl; simp at hl
    simp only [List.foldl_cons, List.foldl_nil]
    rw [follow, if_neg h1, if_neg h2]

/-- The directory "../s" of a process working in "/a/b". -/
example : (filePath [46, 46, 47, 115] [107]).leads [[97], [98]] = [[97], [115], [107] ++ suffix] := by decide

/-- C46: in particular for all keys of the default generator. Missing: keys with slashes, for which it is false. -/
theorem C46_generated_partial (dir : Bytes) (read : Nat → Option Bytes) (x key : Bytes) (hr : read 48 = some x)
    (hx : x.length = 48) (hk : Key.generateSessionKey read = .ok key) : Inside dir (filePath dir key) := by
  obtain ⟨key', hk', -, hs⟩ := Key.C44_key read x hr hx
  rw [hk] at hk'
  cases hk'
  apply C46_partial
  intro hm
  exact absurd (hs 47 hm) (by decide)

/-- C46, for whatever happens at the same time: if no key contains a slash, all files are directly inside the
directory, and no other name is ever created or removed. Missing: keys with slashes, for which it is false. -/
theorem C46_files_partial (env : Env I) (s : State I) (h : ReachableIf env
      (fun _ l => match l with | .create k _ | .look k _ | .close k => 47 ∉ k | _ => True) s) (p : Path)
    (hp : s.g.names p ≠ none) : Inside env.dir p := by
  have key : (∀ p, s.g.names p ≠ none → Inside env.dir p) ∧ ∀ pc ∈ s.threads, 47 ∉ pc.key := by
    clear hp
    induction h with
    | start => simp
    | step s l s' hr ho hs ih =>
      obtain ⟨h1, h2⟩ := ih
      cases hs with
      | thread g g' pre post pcs pc n hact =>
        have ha := acts_of_act hact
        simp only [List.mem_append, List.mem_cons] at h2 ⊢
        refine ⟨?_, ?_⟩
        · cases ha with
          | saveNew key f a data hm hu hn =>
            intro p hp
            simp only at hp h1
            split at hp
            · rename_i hpk; subst hpk
              exact C46_partial env.dir key (h2 _ (.inr (.inl rfl)))
            · exact h1 p hp
          | remove key i hu hn =>
            intro p hp
            simp only [G.ev] at hp h1
            split at hp
            · exact absurd rfl hp
            · exact h1 p hp
          | _ => exact h1
        · rintro pc' (h | h | h)
          · exact h2 pc' (.inl h)
          · rcases ha.pcs with rfl | ⟨pc'', rfl, hk, _⟩
            · cases h
            · simp only [List.mem_singleton] at h
              subst h
              rw [hk]
              exact h2 pc (.inr (.inl rfl))
          · exact h2 pc' (.inr (.inr h))
      | create g ts key f =>
        refine ⟨h1, ?_⟩
        simp only [List.mem_cons]
        rintro pc (rfl | h)
        · exact ho
        · exact h2 pc h
      | look g ts key now =>
        refine ⟨h1, ?_⟩
        simp only [List.mem_cons]
        rintro pc (rfl | h)
        · exact ho
        · exact h2 pc h
      | close g ts key =>
        refine ⟨h1, ?_⟩
        simp only [List.mem_cons]
        rintro pc (rfl | h)
        · exact ho
        · exact h2 pc h
      | crash g ts => exact ⟨h1, by simp⟩
  exact key.1 p hp

example : Inside [47, 115] (filePath [47, 115] [46, 46]) := C46_partial _ _ (by decide)

/-! ## A map from keys to sessions -/

/-- `Sequential`, computed. -/
def sequential (s : State I) : Label I → Bool
  | .thread .. => true
  | .crash => false
  | _ => s.threads.isEmpty

theorem sequential_ok (s : State I) (l : Label I) (h : sequential s l = true) : Sequential s l := by
  cases l <;> simp_all [sequential, Sequential]

/-- C45: for operations one after the other, all results for all keys are those of a map from keys to sessions, if
JSON keeps the sessions and the operating system accepts the names. -/
def C45_full : Prop := ∀ (env : Env Unit), (∀ p, env.usable p = true) → (∀ f, Storable env f) → ∀ s : State Unit,
  ReachableIf env Sequential s → ∀ k, Conforms (· = ·) k s.g.log

/-- C45 does not hold: a session created under "a" is found under "./a". -/
theorem C45_violated : ¬ C45_full := by
  intro hfull
  have h : ∃ s, play toy sequential {} [.create [97] ⟨1, 2, ()⟩, .go 0, .go 0, .go 0,
      .look [46, 47, 97] 3, .go 0, .go 0, .go 0, .go 0, .go 0] = some s ∧
      s.g.log = [.createStart [97], .createEnd [97] ⟨1, 2, ()⟩ true, .lookEnd [46, 47, 97] 3 (.found ⟨1, 2, ()⟩)] :=
    ⟨_, rfl, rfl⟩
  obtain ⟨s, hp, hl⟩ := h
  have hc := hfull toy (fun _ => rfl) toy_storable s (play_reachable sequential_ok _ .start hp) [46, 47, 97]
  have := hc [.createStart [97], .createEnd [97] ⟨1, 2, ()⟩ true] _ [] (by rw [hl]; rfl)
  simp [Fits, sessions, stepSpec] at this

/-- `OneAtATime` for `toy` and exact times, computed. -/
def oneAtATime (s : State I) : Label I → Bool
  | .thread .. => true
  | .create k _ | .look k _ | .close k => s.threads.isEmpty && !(k.contains 47)
  | .crash => false

theorem oneAtATime_ok (k : Bytes) (L : Nat → Nat → Prop) (s : State Unit) (l : Label Unit)
    (h : oneAtATime s l = true) : OneAtATime toy L k s l := by
  have hu : ∀ p, toy.usable p = true := fun _ => rfl
  cases l <;> simp_all [oneAtATime, OneAtATime, Good, toy_storable]

/-- C45 for keys without slashes: whatever operations on whatever such keys come one after the other, every
result is that of a map from keys to sessions: creation succeeds, a lookup finds exactly the session created last and
not yet closed, with its creation time, its info and the time of the lookup before, and closing succeeds exactly if
there is a session. Missing: keys with slashes, for which it is false; and overlapping operations (C48, C62). -/
theorem C45_partial (env : Env I) (k : Bytes) (hk : 47 ∉ k) (s : State I)
    (h : ReachableIf env (OneAtATime env (· = ·) k) s) : Conforms (· = ·) k s.g.log :=
  (kInv (fun _ => rfl) hk h).fits

/-- C45, for operations one after the other on any keys (also such with slashes) and any sessions (also such that JSON does
not keep): when a creation has reported success, or a lookup that it found the session, the file contains exactly this
session with the new time of its last lookup. Missing: overlapping operations (C48, C62). -/
theorem C45_saved_partial (env : Env I) (s : State I) (h : ReachableIf env Sequential s) (hidle : s.threads = [])
    (l : List (Ev I)) (e : Ev I) (hl : s.g.log = l ++ [e]) (key : Bytes) (f : SessionFile I) (hs : e.saves key f) :
    Holds env s.g key f :=
  (seq h).done hidle l e hl key f hs

/-- A session created under "../e" and looked up twice. -/
example : ∃ s, ReachableIf toy Sequential s ∧ s.threads = [] ∧ ∃ l, s.g.log = l ++ [.lookEnd [46, 46, 47, 101] 7 (.found ⟨1, 5, ()⟩)] ∧
    Holds toy s.g [46, 46, 47, 101] ⟨1, 7, ()⟩ := by
  have h : ∃ s, play toy sequential {} [.create [46, 46, 47, 101] ⟨1, 2, ()⟩, .go 0, .go 0 2, .go 0 2, .go 0,
      .look [46, 46, 47, 101] 5, .go 0, .go 0, .go 0, .go 0, .go 0, .look [46, 46, 47, 101] 7, .go 0, .go 0, .go 0, .go 0,
      .go 0] = some s ∧ s.threads = [] ∧
      s.g.log = [.createStart [46, 46, 47, 101], .createEnd [46, 46, 47, 101] ⟨1, 2, ()⟩ true,
        .lookEnd [46, 46, 47, 101] 5 (.found ⟨1, 2, ()⟩)] ++ [.lookEnd [46, 46, 47, 101] 7 (.found ⟨1, 5, ()⟩)] := ⟨_, rfl, rfl, rfl⟩
  obtain ⟨s, hp, ht, hl⟩ := h
  have hr := play_reachable (sequential_ok (I := Unit)) _ .start hp
  exact ⟨s, hr, ht, _, hl, C45_saved_partial toy s hr ht _ _ hl _ _ ⟨rfl, rfl⟩⟩

/-- C45: what is stored between operations is what the map says. Missing: keys with slashes, for which it is false. -/
theorem C45_stored_partial (env : Env I) (k : Bytes) (hk : 47 ∉ k) (s : State I)
    (h : ReachableIf env (OneAtATime env (· = ·) k) s) (hidle : s.threads = []) :
    stored env s.g k = sessions s.g.log k := by
  have := (kInv (fun _ => rfl) hk h).file (by simp [hidle])
  simp only [FileInv] at this
  split at this
  · rename_i hm; simp [stored, this, hm]
  · rename_i m hm
    obtain ⟨f, hf, h1, h2, h3, _⟩ := this
    rw [hf, hm]
    obtain ⟨a, b, c⟩ := m
    obtain ⟨a', b', c'⟩ := f
    simp_all

example : ∃ s, ReachableIf toy (OneAtATime toy (· = ·) [97]) s ∧ s.g.log =
    [.createStart [97], .createEnd [97] ⟨1, 2, ()⟩ true, .lookEnd [97] 5 (.found ⟨1, 2, ()⟩), .lookEnd [98] 6 .notFound,
      .lookEnd [97] 7 (.found ⟨1, 5, ()⟩), .closeEnd [97] true, .lookEnd [97] 8 .notFound] := by
  have h : ∃ s, play toy oneAtATime {} [.create [97] ⟨1, 2, ()⟩, .go 0, .go 0 2, .go 0 2, .go 0,
      .look [97] 5, .go 0, .go 0, .go 0, .go 0, .go 0, .look [98] 6, .go 0,
      .look [97] 7, .go 0, .go 0, .go 0, .go 0, .go 0, .close [97], .go 0, .look [97] 8, .go 0] = some s ∧
      s.g.log = [.createStart [97], .createEnd [97] ⟨1, 2, ()⟩ true, .lookEnd [97] 5 (.found ⟨1, 2, ()⟩),
        .lookEnd [98] 6 .notFound, .lookEnd [97] 7 (.found ⟨1, 5, ()⟩), .closeEnd [97] true,
        .lookEnd [97] 8 .notFound] := ⟨_, rfl, rfl⟩
  obtain ⟨s, hp, hl⟩ := h
  exact ⟨s, play_reachable (oneAtATime_ok _ _) _ .start hp, hl⟩

/-! ## Crashes -/

/-- C47: whenever the process crashes, sessions that were created and not closed can be found afterwards. -/
def C47_full : Prop := ∀ (env : Env Unit), (∀ p, env.usable p = true) → (∀ f, Storable env f) → ∀ (s : State Unit)
  (k : Bytes), 47 ∉ k → ReachableIf env (fun s l => match l with
    | .create k' _ | .look k' _ | .close k' => s.threads = [] ∧ 47 ∉ k' | _ => True) s → s.threads = [] →
  ∀ m, sessions s.g.log k = some m → ∃ f, stored env s.g k = some f ∧ f.creation = m.creation ∧ f.info = m.info

/-- C47 does not hold: a crash during a lookup, after the file was truncated, loses the session. -/
theorem C47_violated : ¬ C47_full := by
  intro hfull
  have h : ∃ s, play toy (fun s l => match l with
        | .create k' _ | .look k' _ | .close k' => s.threads.isEmpty && !(k'.contains 47)
        | _ => true) {} [.create [97] ⟨1, 2, ()⟩, .go 0, .go 0, .go 0, .look [97] 3, .go 0, .go 0, .go 0, .crash] = some s ∧
      s.threads = [] ∧ sessions s.g.log [97] = some ⟨1, 2, ()⟩ ∧ stored toy s.g [97] = none :=
    ⟨_, rfl, rfl, rfl, rfl⟩
  obtain ⟨s, hp, ht, hm, hs⟩ := h
  have hr := play_reachable (ok := fun s l => match l with
    | .create k' _ | .look k' _ | .close k' => s.threads = [] ∧ 47 ∉ k' | _ => True) (by
      intro s l hl
      cases l <;> simp_all) _ .start hp
  obtain ⟨f, hf, _⟩ := hfull toy (fun _ => rfl) toy_storable s [97] (by decide) hr ht _ hm
  rw [hs] at hf
  cases hf

/-- C47 for every session whose own file is not being written when the process crashes: after any number of such
crashes during operations on whatever keys, it can be found if and only if it was created and not closed, with its
creation time and info. Missing: crashes during the writing of its own file, for which it is false. -/
theorem C47_partial (env : Env I) (k : Bytes) (hk : 47 ∉ k) (s : State I)
    (h : ReachableIf env (OneAtATime env (fun _ _ => True) k) s) (hidle : s.threads = []) :
    match sessions s.g.log k with
    | none => s.g.names (env.path k) = none
    | some m => ∃ f, stored env s.g k = some f ∧ f.creation = m.creation ∧ f.info = m.info := by
  have := (kInv (fun _ => trivial) hk h).file (by simp [hidle])
  simp only [FileInv] at this
  cases hm : sessions s.g.log k with
  | none => simpa only [hm] using this
  | some m =>
    simp only [hm] at this ⊢
    obtain ⟨f, hf, h1, h2, _⟩ := this
    exact ⟨f, hf, h1, h2⟩

/-- C47: the results of operations before and after such crashes fit, too. Missing: sessions whose own file is being written,
for which it is false. -/
theorem C47_results_partial (env : Env I) (k : Bytes) (hk : 47 ∉ k) (s : State I)
    (h : ReachableIf env (OneAtATime env (fun _ _ => True) k) s) : Conforms (fun _ _ => True) k s.g.log :=
  (kInv (fun _ => trivial) hk h).fits

/-- `OneAtATime` for `toy` with crashes, computed. -/
def oneAtATimeCrash (k : Bytes) (s : State I) : Label I → Bool
  | .thread .. => true
  | .create k _ | .look k _ | .close k => s.threads.isEmpty && !(k.contains 47)
  | .crash => s.threads.all fun pc => !pc.writes k

theorem oneAtATimeCrash_ok (k : Bytes) (s : State Unit) (l : Label Unit) (h : oneAtATimeCrash k s l = true) :
    OneAtATime toy (fun _ _ => True) k s l := by
  have hu : ∀ p, toy.usable p = true := fun _ => rfl
  cases l <;> simp_all [oneAtATimeCrash, OneAtATime, Good, toy_storable]

example : ∃ s, ReachableIf toy (OneAtATime toy (fun _ _ => True) [97]) s ∧ s.threads = [] ∧
    sessions s.g.log [97] = some ⟨1, 2, ()⟩ ∧ stored toy s.g [98] = none := by
  have h : ∃ s, play toy (oneAtATimeCrash [97]) {} [.create [97] ⟨1, 2, ()⟩, .go 0, .go 0, .go 0,
      .create [98] ⟨1, 2, ()⟩, .go 0, .go 0 1, .crash] = some s ∧ s.threads = [] ∧
      sessions s.g.log [97] = some ⟨1, 2, ()⟩ ∧ stored toy s.g [98] = none := ⟨_, rfl, rfl, rfl, rfl⟩
  obtain ⟨s, hp, h⟩ := h
  exact ⟨s, play_reachable (oneAtATimeCrash_ok _) _ .start hp, h⟩

/-! ## Closing -/

/-- C48: when everything has come to rest, the file of a session closed and not created anew does not exist. -/
def C48_full : Prop := ∀ s : State Unit, ReachableIf toy (fun _ l => l ≠ .crash) s → s.threads = [] →
  ∀ k, Dead toy (toy.path k) s.g.log → s.g.names (toy.path k) = none

/-- C48 does not hold: a lookup that has read the file before it was removed writes it again. -/
theorem C48_violated : ¬ C48_full := by
  intro hfull
  have h : ∃ s, play toy (fun _ l => match l with | .crash => false | _ => true) {}
      [.create [97] ⟨1, 2, ()⟩, .go 0, .go 0, .go 0, .look [97] 3, .go 0, .go 0, .close [97], .go 0, .go 0, .go 0, .go 0] =
        some s ∧ s.threads = [] ∧
      s.g.log = [.createStart [97], .createEnd [97] ⟨1, 2, ()⟩ true, .closeEnd [97] true,
        .lookEnd [97] 3 (.found ⟨1, 2, ()⟩)] ∧ s.g.names (toy.path [97]) = some 1 := ⟨_, rfl, rfl, rfl, rfl⟩
  obtain ⟨s, hp, ht, hl, hn⟩ := h
  have hr := play_reachable (ok := fun (_ : State Unit) (l : Label Unit) => l ≠ .crash) (by
    intro s l h; cases l <;> simp_all) _ .start hp
  have := hfull s hr ht [97] ⟨[.createStart [97], .createEnd [97] ⟨1, 2, ()⟩ true], [97],
    [.lookEnd [97] 3 (.found ⟨1, 2, ()⟩)], by rw [hl]; rfl, rfl, by simp⟩
  rw [hn] at this
  cases this

/-- C48 if `OnSessionClosed` does not overlap with other operations on the same file (lookups and creations may
overlap with each other, the process may crash, keys are any): the file of a session that was closed, and of which no
creation started since, does not exist, and no lookup has found it. Missing: overlapping lookups, for which it is
false. -/
theorem C48_partial (env : Env I) (s : State I) (h : ReachableIf env (CloseAlone env) s) (key : Bytes)
    (hd : Dead env (env.path key) s.g.log) : s.g.names (env.path key) = none ∧ stored env s.g key = none := by
  have := ((dInv h).dead _ hd).1
  exact ⟨this, by simp [stored, this]⟩

/-- C48: lookups that end after the session was closed do not find it. -/
theorem C48_lookup_partial (env : Env I) (s : State I) (h : ReachableIf env (CloseAlone env) s) (key : Bytes)
    (now : Nat) (res : Look I) (l1 l2 : List (Ev I)) (hl : s.g.log = l1 ++ .lookEnd key now res :: l2)
    (hd : Dead env (env.path key) l1) : ∀ f, res ≠ .found f := by
  rintro f rfl
  exact (dInv h).notFound l1 key now f l2 hl hd

/-- `CloseAlone`, computed. -/
def closeAlone (env : Env I) (s : State I) : Label I → Bool
  | .create key _ | .look key _ => s.threads.all fun pc => !(pc.closes && decide (env.path pc.key = env.path key))
  | .close key => s.threads.all fun pc => !decide (env.path pc.key = env.path key)
  | _ => true

theorem closeAlone_ok (env : Env I) (s : State I) (l : Label I) (h : closeAlone env s l = true) :
    CloseAlone env s l := by
  cases l <;> simp_all [closeAlone, CloseAlone]
  all_goals
    intro pc hpc hc
    rcases h pc hpc with h | h
    · rw [hc] at h; cases h
    · exact h

example : ∃ s, ReachableIf toy (CloseAlone toy) s ∧ s.g.log =
    [.createStart [97], .createEnd [97] ⟨1, 2, ()⟩ true, .closeEnd [97] true, .lookEnd [97] 3 .notFound] := by
  have h : ∃ s, play toy (closeAlone toy) {} [.create [97] ⟨1, 2, ()⟩, .go 0, .go 0, .go 0, .close [97], .go 0,
      .look [97] 3, .look [97] 4, .go 1] = some s ∧ s.g.log =
    [.createStart [97], .createEnd [97] ⟨1, 2, ()⟩ true, .closeEnd [97] true, .lookEnd [97] 3 .notFound] :=
      ⟨_, rfl, rfl⟩
  obtain ⟨s, hp, h⟩ := h
  exact ⟨s, play_reachable (closeAlone_ok toy) _ .start hp, h⟩

/-! ## Concurrent lookups -/

/-- C62: lookups of a stored session find it, whatever other lookups go on at the same time. -/
def C62_full : Prop := ∀ s : State Unit, ReachableIf toy OnlyLookups s → ∀ key f, .createEnd key f true ∈ s.g.log → ∀ now res, .lookEnd key now res ∈ s.g.log →
    ∃ f', res = .found f' ∧ f'.creation = f.creation

/-- The check of the executions below. -/
def lookupsOnly (s : State Unit) : Label Unit → Bool
  | .create _ _ => s.g.log.isEmpty && s.threads.isEmpty
  | .look _ _ => s.g.log.any fun | .createEnd _ _ true => true | _ => false
  | .close _ | .crash => false
  | .thread .. => true

theorem lookupsOnly_ok (s : State Unit) (l : Label Unit) (h : lookupsOnly s l = true) : OnlyLookups s l := by
  cases l with
  | look key now =>
    simp only [lookupsOnly, List.any_eq_true] at h
    obtain ⟨e, he, hx⟩ := h
    cases e with
    | createEnd key f ok => cases ok <;> simp at hx; exact ⟨key, f, he⟩
    | _ => simp at hx
  | _ => simp_all [lookupsOnly, OnlyLookups]

/-- C62 does not hold: a lookup that reads the file while another one rewrites it fails. -/
theorem C62_violated : ¬ C62_full := by
  intro hfull
  have h : ∃ s, play toy lookupsOnly {} [.create [97] ⟨1, 2, ()⟩, .go 0, .go 0, .go 0,
      .look [97] 3, .go 0, .go 0, .go 0, .look [97] 4, .go 0, .go 0] = some s ∧
      s.g.log = [.createStart [97], .createEnd [97] ⟨1, 2, ()⟩ true, .lookEnd [97] 4 .failed] := ⟨_, rfl, rfl⟩
  obtain ⟨s, hp, hl⟩ := h
  obtain ⟨f', hf', _⟩ := hfull s (play_reachable lookupsOnly_ok _ .start hp) [97] ⟨1, 2, ()⟩ (by rw [hl]; simp) 4
    .failed (by rw [hl]; simp)
  cases hf'

/-- C62 does not hold: two overlapping lookups can leave a file, with nothing going on any more, that no later
lookup can read. -/
theorem C62_corrupted_violated : ∃ s : State Unit, Reachable toy s ∧ s.threads = [] ∧
    s.g.log = [.createStart [97], .createEnd [97] ⟨1, 2, ()⟩ true, .lookEnd [97] 9 (.found ⟨1, 2, ()⟩),
      .lookEnd [97] 3 (.found ⟨1, 2, ()⟩)] ∧
    (∃ i, s.g.names (toy.path [97]) = some i) ∧ stored toy s.g [97] = none := by
  have h : ∃ s, play toy (fun _ _ => true) {} [.create [97] ⟨1, 2, ()⟩, .go 0, .go 0, .go 0,
      .look [97] 3, .look [97] 9, .go 0, .go 0, .go 1, .go 1, .go 0, .go 1, .go 0, .go 1, .go 0, .go 0] = some s ∧
      s.threads = [] ∧
    s.g.log = [.createStart [97], .createEnd [97] ⟨1, 2, ()⟩ true, .lookEnd [97] 9 (.found ⟨1, 2, ()⟩),
      .lookEnd [97] 3 (.found ⟨1, 2, ()⟩)] ∧
    (∃ i, s.g.names (toy.path [97]) = some i) ∧ stored toy s.g [97] = none := ⟨_, rfl, rfl, rfl, ⟨_, rfl⟩, rfl⟩
  obtain ⟨s, hp, h⟩ := h
  exact ⟨s, play_reachable (fun _ _ _ => trivial) _ .start hp, h⟩

/-- C62 for lookups that do not overlap. Missing: lookups that do, for which it is false. -/
theorem C62_partial (env : Env I) (key : Bytes) (hk : 47 ∉ key) (s : State I)
    (h : ReachableIf env (OneAtATime env (fun _ _ => True) key) s) (now : Nat) (res : Look I) (l1 l2 : List (Ev I))
    (hl : s.g.log = l1 ++ .lookEnd key now res :: l2) (m : SessionFile I) (hm : sessions l1 key = some m) :
    ∃ f, res = .found f ∧ f.creation = m.creation ∧ f.info = m.info := by
  have := (kInv (fun _ => trivial) hk h).fits l1 _ l2 hl
  simp only [Fits, hm] at this
  obtain ⟨f, h1, h2, h3, _⟩ := this trivial
  exact ⟨f, h1, h2, h3⟩

/-- What is said of a key under which the operating system keeps no file (too long, a NUL byte, a directory): it cannot be created,
is never found, cannot be closed. -/
def Unusable (env : Env I) (key : Bytes) : Ev I → Prop
  | .createStart _ => True
  | .createEnd k _ ok => k = key → ok = false
  | .lookEnd k _ res => k = key → res = if env.missing (env.path key) then .notFound else .failed
  | .closeEnd k ok => k = key → ok = false

/-- Goroutines that have not looked at the file. -/
def PC.early (key : Bytes) : PC I → Prop
  | .saving k _ after => k = key → after = .created
  | .statting .. | .removing .. => True
  | .writing k .. | .reading k .. => k ≠ key

theorem unusable_inv (env : Env I) (key : Bytes) (hu : env.usable (env.path key) = false) {ok : State I → Label I → Prop} {s : State I}
    (h : ReachableIf env ok s) : (∀ e ∈ s.g.log, Unusable env key e) ∧ ∀ pc ∈ s.threads, pc.early key := by
  induction h with
  | start => simp
  | step s l s' _ _ hs ih =>
    cases hs with
    | thread g g' pre post pcs pc n hact =>
      obtain ⟨h1, h2⟩ := ih
      have hpc := h2 pc (by simp)
      have key' : (∀ e ∈ g'.log, Unusable env key e) ∧ ∀ q ∈ pcs, q.early key := by
        cases pc with
        | saving k f after =>
          simp only [act] at hact
          split at hact
          · cases hact
            refine ⟨?_, by simp⟩
            intro e he
            simp only [G.ev, List.mem_append, List.mem_singleton] at he
            rcases he with he | rfl
            · exact h1 e he
            · cases after <;> simp_all [finish, Unusable, PC.early]
          · split at hact
            · cases hact
              refine ⟨?_, ?_⟩
              · intro e he
                refine h1 e ?_
                simp only [G.openTrunc] at he
                split at he <;> exact he
              · intro q hq
                simp only [List.mem_singleton] at hq
                subst hq
                rintro rfl
                simp_all
            · cases hact
              refine ⟨?_, by simp⟩
              intro e he
              simp only [G.ev, List.mem_append, List.mem_singleton] at he
              rcases he with he | rfl
              · exact h1 e he
              · cases after <;> simp_all [finish, Unusable, PC.early]
        | writing k f i data off after =>
          simp only [PC.early] at hpc
          simp only [act] at hact
          split at hact
          · cases hact
            refine ⟨?_, by simp⟩
            intro e he
            simp only [G.ev, List.mem_append, List.mem_singleton] at he
            rcases he with he | rfl
            · exact h1 e he
            · cases after <;> simp_all [finish, Unusable]
          · cases hact
            exact ⟨h1, by simpa [PC.early] using hpc⟩
        | statting k now =>
          simp only [act] at hact
          split at hact
          · rename_i hus
            have hk : k ≠ key := by rintro rfl; simp_all
            split at hact
            · cases hact
              refine ⟨?_, by simp⟩
              intro e he
              simp only [G.ev, List.mem_append, List.mem_singleton] at he
              rcases he with he | rfl
              · exact h1 e he
              · simp only [Unusable]; rintro rfl; simp_all
            · cases hact
              exact ⟨h1, by simpa [PC.early] using hk⟩
          · split at hact
            · cases hact
              refine ⟨?_, by simp⟩
              intro e he
              simp only [G.ev, List.mem_append, List.mem_singleton] at he
              rcases he with he | rfl
              · exact h1 e he
              · simp only [Unusable]; rintro rfl; simp_all
            · cases hact
              refine ⟨?_, by simp⟩
              intro e he
              simp only [G.ev, List.mem_append, List.mem_singleton] at he
              rcases he with he | rfl
              · exact h1 e he
              · simp only [Unusable]; rintro rfl; simp_all
        | reading k now =>
          simp only [PC.early] at hpc
          simp only [act] at hact
          split at hact
          · cases hact
            refine ⟨?_, by simp⟩
            intro e he
            simp only [G.ev, List.mem_append, List.mem_singleton] at he
            rcases he with he | rfl
            · exact h1 e he
            · simp only [Unusable]; rintro rfl; simp_all
          · split at hact
            · cases hact
              refine ⟨?_, by simp⟩
              intro e he
              simp only [G.ev, List.mem_append, List.mem_singleton] at he
              rcases he with he | rfl
              · exact h1 e he
              · simp only [Unusable]; rintro rfl; simp_all
            · cases hact
              exact ⟨h1, by intro q hq; simp only [List.mem_singleton] at hq; subst hq; exact fun h => absurd h hpc⟩
        | removing k =>
          simp only [act] at hact
          split at hact
          · rename_i hus
            have hk : k ≠ key := by rintro rfl; simp_all
            split at hact
            all_goals
              cases hact
              refine ⟨?_, by simp⟩
              intro e he
              simp only [G.ev, List.mem_append, List.mem_singleton] at he
              rcases he with he | rfl
              · exact h1 e he
              · simp only [Unusable]; rintro rfl; simp_all
          · cases hact
            refine ⟨?_, by simp⟩
            intro e he
            simp only [G.ev, List.mem_append, List.mem_singleton] at he
            rcases he with he | rfl
            · exact h1 e he
            · simp only [Unusable]; rintro rfl; simp_all
      refine ⟨key'.1, fun q hq => ?_⟩
      simp only [List.mem_append] at hq
      rcases hq with hq | hq | hq
      · exact h2 q (by simp [hq])
      · exact key'.2 q hq
      · exact h2 q (by simp [hq])
    | create g ts k f =>
      refine ⟨?_, ?_⟩
      · intro e he
        simp only [G.ev, List.mem_append, List.mem_singleton] at he
        rcases he with he | rfl
        · exact ih.1 e he
        · trivial
      · intro q hq
        rcases List.mem_cons.mp hq with rfl | hq
        · exact fun _ => rfl
        · exact ih.2 q hq
    | look g ts k now =>
      exact ⟨ih.1, fun q hq => (List.mem_cons.mp hq).elim (fun h => h ▸ trivial) (ih.2 q)⟩
    | close g ts k =>
      exact ⟨ih.1, fun q hq => (List.mem_cons.mp hq).elim (fun h => h ▸ trivial) (ih.2 q)⟩
    | crash g ts => exact ⟨ih.1, by simp⟩

/-- C45, for keys (such as clients may send) that cannot be names of files, in all executions, overlapping and with crashes: creating a
session under such a key fails, closing it fails, and looking it up says that there is none, or fails if `Stat` does not say that the
file does not exist. It never returns a session. -/
theorem C45_unusable_keys (env : Env I) (key : Bytes) (hu : env.usable (env.path key) = false) (s : State I) (h : Reachable env s) :
    ∀ e ∈ s.g.log, Unusable env key e := (unusable_inv env key hu h).1

/-- C45, non-vacuity: a directory stands where the file of `b` would be; a session `a` goes through its life meanwhile. -/
example : ∃ env : Env Unit, env.usable (env.path [98]) = false ∧ ∃ s : State Unit, Reachable env s ∧ s.threads = [] ∧ s.g.log =
    [.createStart [98], .createEnd [98] ⟨1, 2, ()⟩ false, .createStart [97], .lookEnd [98] 3 .failed,
      .createEnd [97] ⟨1, 2, ()⟩ true, .closeEnd [98] false, .closeEnd [97] true] := by
  refine ⟨⟨[47, 115], fun f => some (toyMarshal f), toyUnmarshal, fun p => p ≠ filePath [47, 115] [98], fun _ => false⟩, by decide, ?_⟩
  have h : ∃ s, play ⟨[47, 115], fun f => some (toyMarshal f), toyUnmarshal, fun p => p ≠ filePath [47, 115] [98], fun _ => false⟩
      (fun _ _ => true) {} [.create [98] ⟨1, 2, ()⟩, .go 0, .create [97] ⟨1, 2, ()⟩, .go 0, .look [98] 3, .go 0, .go 0, .go 0,
        .close [98], .go 0, .close [97], .go 0] = some s ∧ s.threads = [] ∧ s.g.log =
    [.createStart [98], .createEnd [98] ⟨1, 2, ()⟩ false, .createStart [97], .lookEnd [98] 3 .failed,
      .createEnd [97] ⟨1, 2, ()⟩ true, .closeEnd [98] false, .closeEnd [97] true] := ⟨_, rfl, rfl, rfl⟩
  obtain ⟨s, hp, h⟩ := h
  exact ⟨s, play_reachable (fun _ _ _ => trivial) _ .start hp, h⟩

end Webwire.Store
