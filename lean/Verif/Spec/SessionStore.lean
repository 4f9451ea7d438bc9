import Verif.Model.SessionStore

/-!
# What the file session manager should do
-/

set_option autoImplicit false

namespace Webwire.Store

variable {I : Type}

/-- Following one element of a path, in a file system without symbolic links: a directory is named by the elements that
lead to it from the root, whose parent is the root itself. -/
def follow (d : List Bytes) (c : Bytes) : List Bytes :=
  if c = [] ∨ c = [46] then d else if c = [46, 46] then d.dropLast else d ++ [c]

/-- Following the rest of a path, `cur` being the element begun. -/
def followAll (d : List Bytes) (cur : Bytes) : Bytes → List Bytes
  | [] => follow d cur
  | c :: cs => if c = 47 then followAll (follow d cur) [] cs else followAll d (cur ++ [c]) cs

/-- Where a path leads from the working directory. -/
def leads (cwd : List Bytes) (p : Bytes) : List Bytes := followAll (if p.head? = some 47 then [] else cwd) [] p

/-- Where a clean path leads. -/
def Path.leads (cwd : List Bytes) (p : Path) : List Bytes := p.comps.foldl follow (if p.rooted then [] else cwd)

/-- The path is that of a file directly inside the directory, whatever the working directory. -/
def Inside (dir : Bytes) (p : Path) : Prop :=
  ∃ name, 47 ∉ name ∧ name ≠ [] ∧ ∀ cwd, p.leads cwd = leads cwd dir ++ [name]

/-- The sessions stored after the events: a map from keys to sessions. -/
def stepSpec (m : Bytes → Option (SessionFile I)) : Ev I → Bytes → Option (SessionFile I)
  | .createEnd key f true => fun k => if k = key then some f else m k
  | .lookEnd key now (.found f) => fun k => if k = key then some { f with lastLookup := now } else m k
  | .closeEnd key true => fun k => if k = key then none else m k
  | _ => m

/-- The sessions stored after the events. -/
def sessions (log : List (Ev I)) : Bytes → Option (SessionFile I) := log.foldl stepSpec fun _ => none

/-- What the manager says about the key fits a map from keys to sessions; last lookup times are related by `L`. -/
def Fits (L : Nat → Nat → Prop) (k : Bytes) (m : Bytes → Option (SessionFile I)) : Ev I → Prop
  | .createEnd key _ ok => key = k → ok = true
  | .lookEnd key _ res => key = k →
    match m k with
    | none => res = .notFound
    | some f => ∃ f', res = .found f' ∧ f'.creation = f.creation ∧ f'.info = f.info ∧ L f.lastLookup f'.lastLookup
  | .closeEnd key ok => key = k → ok = (m k).isSome
  | .createStart _ => True

/-- All results for the key fit. -/
def Conforms (L : Nat → Nat → Prop) (k : Bytes) (log : List (Ev I)) : Prop :=
  ∀ l1 e l2, log = l1 ++ e :: l2 → Fits L k (sessions l1) e

/-- What the file of the session says, as the next lookup reads it. -/
def stored (env : Env I) (g : G I) (key : Bytes) : Option (SessionFile I) :=
  match g.names (env.path key) with
  | none => none
  | some i => env.unmarshal (g.inodes i)

/-- JSON keeps the creation time and the info, whatever the last lookup time. -/
def Storable (env : Env I) (f : SessionFile I) : Prop := ∀ l, ∃ b, env.marshal { f with lastLookup := l } = some b ∧
  env.unmarshal b = some { f with lastLookup := l }

/-- Keys without slashes whose file names the operating system accepts. -/
def Good (env : Env I) (key : Bytes) : Prop := 47 ∉ key ∧ env.usable (env.path key) = true

/-- The key of a goroutine's operation. -/
def PC.key : PC I → Bytes
  | .saving k .. | .writing k .. | .statting k .. | .reading k .. | .removing k => k

/-- The goroutine is writing the file of this key. -/
def PC.writes (key : Bytes) : PC I → Bool
  | .writing k .. => decide (k = key)
  | _ => false

/-- Operations one at a time, on good keys and storable sessions; crashes only if `L` does not mind, and not while
the file of `k` is being written. -/
def OneAtATime (env : Env I) (L : Nat → Nat → Prop) (k : Bytes) (s : State I) : Label I → Prop
  | .thread .. => True
  | .create key f => s.threads = [] ∧ Good env key ∧ Storable env f
  | .look key _ => s.threads = [] ∧ Good env key
  | .close key => s.threads = [] ∧ Good env key
  | .crash => (∀ a b, L a b) ∧ ∀ pc ∈ s.threads, pc.writes k = false

/-- Operations one at a time on any keys, without crashes. -/
def Sequential (s : State I) : Label I → Prop
  | .thread .. => True
  | .crash => False
  | _ => s.threads = []

/-- The event says that the session was saved under the key: it was created, or a lookup found it (and saved the time). -/
def Ev.saves (key : Bytes) (f : SessionFile I) : Ev I → Prop
  | .createEnd key' f' true => key' = key ∧ f' = f
  | .lookEnd key' now (.found old) => key' = key ∧ { old with lastLookup := now } = f
  | _ => False

/-- The file of the session contains exactly the session. -/
def Holds (env : Env I) (g : G I) (key : Bytes) (f : SessionFile I) : Prop :=
  ∃ data i, env.marshal f = some data ∧ g.names (env.path key) = some i ∧ g.inodes i = data

/-- One session is created; then there are only lookups. -/
def OnlyLookups (s : State I) : Label I → Prop
  | .create _ _ => s.g.log = [] ∧ s.threads = []
  | .look _ _ => ∃ key f, .createEnd key f true ∈ s.g.log
  | .close _ | .crash => False
  | .thread .. => True

/-- The last thing that happened to the file was its removal by `OnSessionClosed`. -/
def Dead (env : Env I) (p : Path) (log : List (Ev I)) : Prop :=
  ∃ l1 key l2, log = l1 ++ .closeEnd key true :: l2 ∧ env.path key = p ∧
    ∀ key', env.path key' = p → .createStart key' ∉ l2

/-- The goroutine closes a session. -/
def PC.closes : PC I → Bool
  | .removing _ => true
  | _ => false

/-- `OnSessionClosed` does not overlap with another operation on the same file. -/
def CloseAlone (env : Env I) (s : State I) : Label I → Prop
  | .create key _ | .look key _ => ∀ pc ∈ s.threads, pc.closes = true → env.path pc.key ≠ env.path key
  | .close key => ∀ pc ∈ s.threads, env.path pc.key ≠ env.path key
  | _ => True

/-! ## Playing concrete executions, for examples and counterexamples -/

/-- What to do next. -/
inductive Cmd (I : Type)
  | go (i : Nat) (n : Nat := 1000)
  | create (key : Bytes) (f : SessionFile I)
  | look (key : Bytes) (now : Nat)
  | close (key : Bytes)
  | crash

/-- The label of the step. -/
def Cmd.label (s : State I) : Cmd I → Option (Label I)
  | .go i n => s.threads[i]?.map fun pc => .thread pc n
  | .create k f => some (.create k f)
  | .look k now => some (.look k now)
  | .close k => some (.close k)
  | .crash => some .crash

/-- Make the step if possible. -/
def exec (env : Env I) (s : State I) : Cmd I → Option (State I)
  | .go i n =>
    match s.threads[i]? with
    | none => none
    | some pc =>
      match act env s.g n pc with
      | none => none
      | some (g', pcs) => some ⟨g', s.threads.take i ++ (pcs ++ s.threads.drop (i + 1))⟩
  | .create k f => some ⟨s.g.ev (.createStart k), .saving k f .created :: s.threads⟩
  | .look k now => some ⟨s.g, .statting k now :: s.threads⟩
  | .close k => some ⟨s.g, .removing k :: s.threads⟩
  | .crash => some ⟨s.g, []⟩

/-- Make the steps, each of which has to pass the check. -/
def play (env : Env I) (ok : State I → Label I → Bool) (s : State I) : List (Cmd I) → Option (State I)
  | [] => some s
  | cmd :: cmds =>
    match cmd.label s, exec env s cmd with
    | some l, some s' => if ok s l then play env ok s' cmds else none
    | _, _ => none

theorem exec_step {env : Env I} {s s' : State I} {cmd : Cmd I} (h : exec env s cmd = some s') :
    ∃ l, cmd.label s = some l ∧ Step env s l s' := by
  obtain ⟨g, ts⟩ := s
  cases cmd with
  | go i n =>
    simp only [Cmd.label, exec] at h ⊢
    cases hi : ts[i]? with
    | none => simp [hi] at h
    | some pc =>
      simp only [hi] at h
      split at h
      · cases h
      · rename_i g' pcs ha
        cases h
        refine ⟨_, rfl, ?_⟩
        have hts : ts = ts.take i ++ pc :: ts.drop (i + 1) := by
          obtain ⟨hlt, hpc⟩ := List.getElem?_eq_some_iff.mp hi
          rw [← hpc, ← List.drop_eq_getElem_cons hlt, List.take_append_drop]
        have := Step.thread (env := env) g g' (ts.take i) (ts.drop (i + 1)) pcs pc n ha
        rw [← hts] at this
        exact this
  | create k f => cases h; exact ⟨_, rfl, .create g ts k f⟩
  | look k now => cases h; exact ⟨_, rfl, .look g ts k now⟩
  | close k => cases h; exact ⟨_, rfl, .close g ts k⟩
  | crash => cases h; exact ⟨_, rfl, .crash g ts⟩

theorem play_reachable {env : Env I} {ok : State I → Label I → Prop} {okb : State I → Label I → Bool}
    (hok : ∀ s l, okb s l = true → ok s l) (cmds : List (Cmd I)) {s s' : State I} (hr : ReachableIf env ok s)
    (h : play env okb s cmds = some s') : ReachableIf env ok s' := by
  induction cmds generalizing s with
  | nil => cases h; exact hr
  | cons cmd cmds ih =>
    simp only [play] at h
    split at h
    · rename_i l s1 hl he
      split at h
      · rename_i hb
        obtain ⟨l', hl', hs⟩ := exec_step he
        have : l' = l := by rw [hl] at hl'; exact (Option.some.inj hl').symm
        subst this
        exact ih (.step s l' s1 hr (hok s l' hb) hs) h
      · cases h
    · cases h

end Webwire.Store
