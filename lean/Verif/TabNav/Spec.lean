import Verif.TabNav.Model

/-!
# What is claimed of navigation
-/
namespace Verif.TabNav

/-- A state a tab can get into, by any schedule. -/
def Reachable (env : Env) (title : Str) (t : Tab) : Prop := ∃ xs, run env (Tab.new title) xs = some t

/-- Between `t` and `t'` navigation `n` has been started and its task is running. -/
def Starts (t t' : Tab) (n : Nat) : Prop :=
  t.tasks.length = n ∧ (t'.tasks[n]?).map Task.chan = some .empty

/-- No command among the steps: the user waits. -/
def Waiting (xs : List Step) : Prop := ∀ c ok, Step.cmd c ok ∉ xs

/-- The answer of navigation `n`. -/
def answer (t : Tab) (n : Nat) : Option Chan := (t.tasks[n]?).map Task.chan

/-- What a navigation event tells. -/
inductive Mark where
  | start
  | done
  | failed
  | cancelled
deriving DecidableEq, Repr

/-- The navigation events by number. -/
def numbered (es : List Event) : List (Mark × Nat) :=
  es.filterMap fun e => match e with
    | .started n _ => some (.start, n)
    | .finished n _ => some (.done, n)
    | .failed (some n) _ => some (.failed, n)
    | .cancelled n _ => some (.cancelled, n)
    | _ => none

/-- Navigation `n` has been reported as ended: finished, failed or cancelled. -/
def Ended (t : Tab) (n : Nat) : Prop := ∃ m, m ≠ Mark.start ∧ (m, n) ∈ numbered t.events

/-- The web page navigation `n` loaded, if it loaded one, with its title. -/
def webPage (t : Tab) (n : Nat) : Option (Url × Option Str) :=
  match answer t n with
  | some (.sent (.ok u title)) =>
    if u.scheme = "http".toList ∨ u.scheme = "https".toList then some (u, title) else none
  | _ => none

/-- The web pages reported as loaded, in the order of the reports. -/
def pagesShown (t : Tab) : List (Url × Option Str) :=
  (numbered t.events).filterMap fun p => if p.1 = .done then webPage t p.2 else none

/-- The recorded visit is of this page, under its title if it has one. -/
def VisitOf (v : Url × Str) (p : Url × Option Str) : Prop := v.1 = p.1 ∧ ∀ s, p.2 = some s → v.2 = s

/-- No navigation is in flight: the worker waits for no answer and no new load. -/
def Idle (t : Tab) : Prop := t.pendingRx = none ∧ ∀ n, t.load ≠ some (n, true)

/-- The tab shows how navigation `n`, which was answered this way, ended. -/
def Shows (t : Tab) (n : Nat) : Chan → Prop
  | .sent (.ok url _) => t.doc = some n ∧ t.cur = some url ∧ t.isLoading = false ∧ t.isError = false
  | .sent .err => t.isLoading = false ∧ t.isError = true
  | .sent (.download _) => t.isLoading = false ∧ t.isError = false
  | .dropped => True
  | .empty => False

/-- A schedule in which the user waits while a navigation is in flight, and every task answers. -/
inductive Orderly (env : Env) : Tab → List Step → Prop
  | nil (t : Tab) : Orderly env t []
  | cons {t t' : Tab} {x : Step} {xs : List Step} (h : step env t x = some t')
      (hc : ∀ c ok, x = .cmd c ok → Idle t ∨ ∃ s, c = .setTitle s)
      (hb : ∀ n u, x ≠ .finish n (.blocked u)) (hn : ∀ n, x ≠ .finish n .nothing)
      (hr : Orderly env t' xs) : Orderly env t (x :: xs)

/-- The commands that show a page of the history again. -/
def Cmd.revisits : Cmd → Bool
  | .reload | .goBack | .goForward _ | .goTo _ => true
  | _ => false

/-- No layout among the steps: the document has not been laid out. -/
def NotLaidOut (xs : List Step) : Prop := ∀ page vh, Step.layout page vh ∉ xs

/-- The offset nearest to `p` that a page of height `ph` in a viewport of height `vh` can be scrolled to. -/
def clampTo (p : Int × Int) (ph vh : ℚ) : ℚ × ℚ := (max (p.1 : ℚ) 0, min (max (p.2 : ℚ) 0) (max (ph - vh) 0))

/-- Less than half a pixel apart. -/
def Near (a b : ℚ × ℚ) : Prop := |a.1 - b.1| < 1 / 2 ∧ |a.2 - b.2| < 1 / 2

end Verif.TabNav
