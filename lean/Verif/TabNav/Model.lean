import Mathlib.Data.Rat.Floor
import Verif.History.Model
import Verif.Composite.Model

/-!
# Navigation in a tab

Model of the navigation part of gosub_engine/src/engine/tab/worker.rs: commands, the tasks that fetch and parse
documents, the channel each of them answers on, the `select!` loop that handles the answers, session history, and where the
page is scrolled to.

A schedule is a list of steps: a command handled by the worker, the worker handling the answer it waits for, a frame, the
user scrolling, a layout, and the steps of the tasks, in any order.

Simplifications: `NavigationId::new()` gives the number of navigations started so far; a URL is its scheme, its fragment and
the rest, with printing and parsing as parameters; whether the storage of a URL can be bound is given with the command;
scrolling by the user sets any offset (the animation is modelled in `Verif.Scroll`); `f64` offsets are exact rationals;
favicons, web fonts, cookies, hover, focus, drawing and downloads other than the offer are left out; a command that
resolves a link (click, Enter) is a `navigate`. `History` calls that would panic make the step `none`.
`visits`, `handled` are records for the theorems: the calls of `record_visit`, and the navigations whose answer the worker
has taken from the channel.
-/
namespace Verif.TabNav
open Verif.History (Hist Snapshot)

/-- A parsed `Url`. -/
structure Url where
  scheme : Str
  rest : Str
  fragment : Option Str
deriving DecidableEq, Repr

/-- What the worker does not decide: the `url` crate, and where a fragment of a document is
(context.rs 623-640, `fragment_target_y`, rounded). -/
structure Env where
  parse : Str → Option Url
  print : Url → Str
  fragY : Option Nat → Str → Option Int

/-- worker.rs 164-172 -/
inductive Intent where
  | push
  | reload
  | traverse (entry : Nat)
deriving DecidableEq, Repr

/-- worker.rs 153-160 -/
structure Active where
  id : Nat
  url : Url
  history : Intent
deriving DecidableEq, Repr

/-- worker.rs 133-150 -/
inductive Result where
  | ok (finalUrl : Url) (title : Option Str)
  | err
  | download (url : Url)
deriving DecidableEq, Repr

/-- The oneshot channel of a navigation: nothing sent, an answer, or the sender dropped. -/
inductive Chan where
  | empty
  | sent (r : Result)
  | dropped
deriving DecidableEq, Repr

/-- worker.rs 1484-1607, 1734-1757: the task of a navigation. `responded`: it has its response and no longer looks
at the cancellation token (1497-1517). -/
structure Task where
  responded : Bool
  cancelled : Bool
  chan : Chan
deriving DecidableEq, Repr

/-- worker.rs 251-256 -/
inductive PendingScroll where
  | offset (x y : Int)
  | fragment (f : Str)
deriving DecidableEq, Repr

/-- The navigation events the host sees. -/
inductive Event where
  | started (id : Nat) (url : Url)
  | finished (id : Nat) (url : Url)
  | failed (id : Option Nat) (url : Url)
  | failedUrl (s : Str)
  | cancelled (id : Nat) (url : Url)
  | downloadRequested (url : Url)
  | historyChanged (s : Snapshot)
deriving DecidableEq, Repr

/-- worker.rs 181-247, the fields concerned. `doc` is the navigation the shown document comes from; `ctx` is the scroll offset
of the browsing context, `page` its page height once laid out, `vh` its viewport height. -/
structure Tab where
  hist : Hist
  cur : Option Url
  pendingUrl : Option Url
  doc : Option Nat
  title : Str
  isLoading : Bool
  isError : Bool
  scroll : Int × Int
  ctx : ℚ × ℚ
  page : Option ℚ
  vh : ℚ
  pendingScroll : Option PendingScroll
  active : Option Active
  load : Option (Nat × Bool)
  pendingRx : Option Nat
  tasks : List Task
  events : List Event
  visits : List (Url × Str)
  handled : List Nat
deriving DecidableEq

/-- worker.rs 414-456, with the configured default title -/
def Tab.new (title : Str) : Tab :=
  ⟨History.init, none, none, none, title, false, false, (0, 0), (0, 0), none, 0, none, none, none, none, [], [], [], []⟩

/-- worker.rs 1230-1237, `send_event` -/
def Tab.emit (t : Tab) (e : Event) : Tab := { t with events := t.events ++ [e] }

/-- worker.rs 1264-1271, `emit_history_changed` -/
def Tab.emitHistory (t : Tab) : Option Tab := do
  let s ← History.snapshot t.hist
  some (t.emit (.historyChanged s))

/-- about_blank, worker.rs 127-130 -/
def aboutBlank : Url := ⟨['a', 'b', 'o', 'u', 't'], ['b', 'l', 'a', 'n', 'k'], none⟩

/-- internal_pages.rs 115-117, `InternalPages::handles` -/
def Url.internal (u : Url) : Bool := decide (u.scheme = "gosub".toList ∨ u.scheme = "about".toList)

/-- worker.rs 794: web pages -/
def Url.web (u : Url) : Bool := decide (u.scheme = "http".toList ∨ u.scheme = "https".toList)

/-- `set_fragment(None)` -/
def Url.bare (u : Url) : Url := { u with fragment := none }

/-- context.rs 311-331, `set_scroll`: the offset afterwards -/
def ctxScroll (t : Tab) (x y : ℚ) : ℚ × ℚ :=
  let x := max x 0
  let y := match t.page with
    | some ph => min (max y 0) (max (ph - t.vh) 0)
    | none => max y 0
  if |t.ctx.1 - x| < 1 / 2 ∧ |t.ctx.2 - y| < 1 / 2 then t.ctx else (x, y)

/-- worker.rs 1334-1343, `apply_scroll` -/
def Tab.applyScroll (t : Tab) (p : Int × Int) : Tab :=
  let c := ctxScroll t p.1 p.2
  { t with ctx := c, scroll := (Composite.roundQ c.1, Composite.roundQ c.2) }

/-- worker.rs 1630-1636, `reset_scroll_for_navigation` -/
def Tab.resetScroll (t : Tab) : Tab := { t with scroll := (0, 0), ctx := (0, 0) }

/-- `CancellationToken::cancel` on the token of a navigation -/
def cancelTask (ts : List Task) (n : Nat) : List Task := ts.modify n fun k => { k with cancelled := true }

/-- worker.rs 2062-2071, `cancel_current_nav` -/
def Tab.cancelActive (t : Tab) : Tab :=
  match t.active with
  | none => t
  | some a => { t with active := none, tasks := cancelTask t.tasks a.id }

/-- worker.rs 1275-1286, `is_same_document` -/
def Tab.sameDocument (t : Tab) (url : Url) : Bool :=
  match t.cur with
  | none => false
  | some c => !t.isLoading && decide (c.bare = url.bare)

/-- worker.rs 1304-1309: what a same-document navigation does to the history -/
def sameHist (env : Env) (t : Tab) (url : Url) : Intent → Option Hist
  | .push => do
    let h ← History.setCurrentScroll t.hist t.scroll.1 t.scroll.2
    (History.push h (env.print url) (some t.title)).map (·.1)
  | _ => some t.hist

/-- worker.rs 1315-1321: where it scrolls to -/
def sameTarget (env : Env) (h : Hist) (doc : Option Nat) (url : Url) : Intent → Option (Int × Int)
  | .traverse e => (h.entries[e]?).map (·.scroll)
  | _ => url.fragment.bind fun f => (env.fragY doc f).map fun y => (0, y)

/-- worker.rs 1292-1331, `navigate_same_document`; it takes a navigation number of its own, without a task -/
def navigateSame (env : Env) (t : Tab) (url : Url) (intent : Intent) : Option Tab := do
  let n := t.tasks.length
  let t := { t.emit (.started n url) with tasks := t.tasks ++ [⟨true, false, .dropped⟩] }
  let h ← sameHist env t url intent
  let t := { t with hist := h, cur := some url }
  let t := match sameTarget env h t.doc url intent with
    | some p => t.applyScroll p
    | none => t
  (t.emit (.finished n url)).emitHistory

/-- worker.rs 1394-1429 and 1608-1612, or 1654-1681 and 1759-1762: a navigation that loads a document starts.
`isFetch`: over the network, otherwise the text of the document is at hand. -/
def Tab.start (t : Tab) (url : Url) (intent : Intent) (isFetch : Bool) : Tab :=
  let n := t.tasks.length
  { t.emit (.started n url) with
    active := some ⟨n, url, intent⟩
    pendingUrl := some url
    isLoading := true
    isError := false
    tasks := t.tasks ++ [⟨!isFetch, false, .empty⟩]
    load := some (n, true) }

/-- worker.rs 1382-1392 (or 1643-1652) and 2097-2120: storage first; a failure is reported by both functions -/
def Tab.startIfBound (t : Tab) (url : Url) (intent : Intent) (isFetch bindOk : Bool) : Tab :=
  if bindOk then t.start url intent isFetch
  else (t.emit (.failed none url)).emit (.failed none url)

/-- worker.rs 1359-1367: what is done before a load starts -/
def Tab.leave (t : Tab) (saveScroll : Bool) : Option Tab :=
  (if saveScroll then History.setCurrentScroll t.hist t.scroll.1 t.scroll.2 else some t.hist).bind fun h =>
    some ({ t with hist := h, pendingScroll := none }.resetScroll.cancelActive)

/-- A traversal, worker.rs 1361 -/
def Intent.isTraverse : Intent → Bool
  | .traverse _ => true
  | _ => false

/-- worker.rs 1347-1613, `navigate_to` -/
def navigateTo (env : Env) (t : Tab) (s : Str) (intent : Intent) (bindOk : Bool) : Option Tab :=
  match env.parse s with
  | none => some (t.emit (.failedUrl s))
  | some url =>
    if intent ≠ .reload ∧ t.sameDocument url then navigateSame env t url intent
    else do
      let t ← t.leave (!intent.isTraverse)
      some (t.startIfBound url intent (!url.internal) bindOk)

/-- worker.rs 1243-1251, `traverse_history` -/
def traverse (env : Env) (t : Tab) (entry : Nat) (bindOk : Bool) : Option Tab :=
  match t.hist.entries[entry]? with
  | none => some t
  | some e => do
    let t ← navigateTo env t e.url (.traverse entry) bindOk
    t.emitHistory

/-- The commands that concern navigation. -/
inductive Cmd where
  | setTitle (s : Str)
  | navigate (s : Str)
  | loadHtml (base : Str)
  | reload
  | goBack
  | goForward (entry : Option Nat)
  | goTo (entry : Nat)
  | cancel
deriving DecidableEq, Repr

/-- worker.rs 1095-1116: the history has moved, or not -/
def moved (env : Env) (t : Tab) (bindOk : Bool) (r : Hist × Option Nat) : Option Tab :=
  match r.2 with
  | none => some { t with hist := r.1 }
  | some e => traverse env { t with hist := r.1 } e bindOk

/-- worker.rs 1070-1217, `handle_tab_command` -/
def command (env : Env) (t : Tab) (bindOk : Bool) : Cmd → Option Tab
  | .setTitle s => some { t with title := s }
  | .navigate s => navigateTo env t s .push bindOk
  | .loadHtml base =>
    match env.parse base with
    | none => some (t.emit (.failedUrl base))
    | some url => do
      let t ← t.leave true
      some (t.startIfBound url .push false bindOk)
  | .reload => navigateTo env t ((t.cur.map env.print).getD "about:blank".toList) .reload bindOk
  | .goBack => do
    let h ← History.setCurrentScroll t.hist t.scroll.1 t.scroll.2
    moved env t bindOk (← History.goBack h)
  | .goForward e => do
    let h ← History.setCurrentScroll t.hist t.scroll.1 t.scroll.2
    moved env t bindOk (← History.goForward h e)
  | .goTo e =>
    if some e = t.hist.current then some t
    else do
      let h ← History.setCurrentScroll t.hist t.scroll.1 t.scroll.2
      moved env t bindOk (← History.goTo h e)
  | .cancel =>
    match t.load with
    | none => some t
    | some (n, _) => some { t with load := none, tasks := cancelTask t.tasks n }

/-- worker.rs 759-764: what the navigation does to the history -/
def intentOf (t : Tab) (n : Nat) : Intent :=
  match t.active with
  | some a => if a.id = n then a.history else .push
  | none => .push

/-- worker.rs 765-780: the history after the commit, and the offset to restore -/
def commitHist (env : Env) (h : Hist) (url : Url) (title : Option Str) : Intent → Option (Hist × Option (Int × Int))
  | .push => (History.push h (env.print url) title).map fun r => (r.1, none)
  | .reload => do
    let h ← History.replaceCurrentUrl h (env.print url)
    let h ← History.setCurrentTitle h title
    some (h, (h.current.bind fun c => h.entries[c]?).map (·.scroll))
  | .traverse e => do
    let h ← History.replaceCurrentUrl h (env.print url)
    let h ← History.setCurrentTitle h title
    some (h, (h.entries[e]?).map (·.scroll))

/-- worker.rs 783-789 -/
def landing (url : Url) : Option (Int × Int) → Option PendingScroll
  | some p => if p ≠ (0, 0) then some (.offset p.1 p.2) else
      (url.fragment.filter (· ≠ [])).map .fragment
  | none => (url.fragment.filter (· ≠ [])).map .fragment

/-- worker.rs 730-852, `on_nav_result` -/
def onResult (env : Env) (t : Tab) (n : Nat) : Result → Option Tab
  | .ok url title => do
    let r ← commitHist env t.hist url title (intentOf t n)
    let name := title.getD t.title
    let t := { t with
      doc := some n
      page := none
      cur := some url
      title := name
      isLoading := false
      isError := false
      hist := r.1
      pendingScroll := landing url r.2
      visits := if url.web then t.visits ++ [(url, name)] else t.visits }
    (t.emit (.finished n url)).emitHistory
  | .download url =>
    some (({ t with isLoading := false, isError := false, pendingUrl := none }.emit (.cancelled n url)).emit
      (.downloadRequested url))
  | .err =>
    some ({ t with isLoading := false, isError := true }.emit
      (.failed (some n) (((t.active.map Active.url).or t.pendingUrl).getD aboutBlank)))

/-- worker.rs 510-516: the loop takes the receiver of a new load when it waits for no other -/
def Tab.sync (t : Tab) : Tab :=
  match t.pendingRx, t.load with
  | none, some (n, true) => { t with pendingRx := some n, load := some (n, false) }
  | _, _ => t

/-- worker.rs 529-543: the answer the worker waits for, if it is there -/
def deliver (env : Env) (t : Tab) : Option Tab :=
  match t.pendingRx with
  | none => some t
  | some n =>
    match t.tasks[n]? with
    | none => some t
    | some k =>
      match k.chan with
      | .empty => some t
      | .sent r => onResult env { t with pendingRx := none, handled := t.handled ++ [n] } n r
      | .dropped => some { t with pendingRx := none, handled := t.handled ++ [n] }

/-- worker.rs 1767-1782: the deferred scroll, once the page has been laid out -/
def tick (env : Env) (t : Tab) : Tab :=
  match t.pendingScroll, t.page with
  | some p, some ph =>
    if 0 < ph then
      match p with
      | .offset x y => { t with pendingScroll := none }.applyScroll (x, y)
      | .fragment f =>
        match env.fragY t.doc f with
        | some y => { t with pendingScroll := none }.applyScroll (0, y)
        | none => { t with pendingScroll := none }
    else t
  | _, _ => t

/-- What a task ends with once it has its response, worker.rs 1543-1606 -/
inductive Outcome where
  | result (r : Result)
  | blocked (url : Url)
  | nothing
deriving DecidableEq, Repr

/-- The task of navigation `n` is running. -/
def Tab.running (t : Tab) (n : Nat) : Option Task :=
  (t.tasks[n]?).filter fun k => decide (k.chan = .empty)

/-- One step of a schedule. -/
inductive Step where
  | cmd (c : Cmd) (bindOk : Bool)
  | deliver
  | tick
  | userScroll (x y : Int)
  | layout (page : Option ℚ) (vh : ℚ)
  | respond (n : Nat)
  | abort (n : Nat)
  | finish (n : Nat) (o : Outcome)
deriving DecidableEq

/-- worker.rs 1504-1516 when it does not take the cancelled branch: the response is there -/
def respond (t : Tab) (n : Nat) : Tab :=
  match t.running n with
  | none => t
  | some k => if k.responded then t else { t with tasks := t.tasks.set n { k with responded := true } }

/-- worker.rs 1488-1516: cancelled before the response, or no response to be had -/
def abort (t : Tab) (n : Nat) : Tab :=
  match t.running n with
  | none => t
  | some k => if k.responded then t else { t with tasks := t.tasks.set n { k with chan := .sent .err } }

/-- worker.rs 1543-1606, 1740-1756 -/
def finish (t : Tab) (n : Nat) (o : Outcome) : Tab :=
  match t.running n with
  | none => t
  | some k =>
    if !k.responded then t
    else match o with
      | .result r => { t with tasks := t.tasks.set n { k with chan := .sent r } }
      | .blocked url => { t.emit (.failed (some n) url) with tasks := t.tasks.set n { k with chan := .dropped } }
      | .nothing => { t with tasks := t.tasks.set n { k with chan := .dropped } }

/-- One step. -/
def step (env : Env) (t : Tab) : Step → Option Tab
  | .cmd c ok => (command env t ok c).map Tab.sync
  | .deliver => (deliver env t).map Tab.sync
  | .tick => some (tick env t)
  | .userScroll x y => some { t with scroll := (x, y), ctx := ctxScroll t x y }
  | .layout page vh => some { t with page := page, vh := vh }
  | .respond n => some (respond t n)
  | .abort n => some (abort t n)
  | .finish n o => some (finish t n o)

/-- A schedule; `none` for a panic. -/
def run (env : Env) : Tab → List Step → Option Tab
  | t, [] => some t
  | t, x :: xs => do
    let t ← step env t x
    run env t xs

end Verif.TabNav
