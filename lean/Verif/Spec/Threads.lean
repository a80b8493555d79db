import Verif.Threads
/-!
# Specification vocabulary: one-at-a-time orders of concurrent calls
-/

namespace Utp

/-- `()` counts as 0. -/
def PollRes.count : PollRes Unit → PollRes Nat
  | .pending => .pending
  | .panic => .panic
  | .ready (.ok _) => .ready (.ok 0)
  | .ready (.error e) => .ready (.error e)

/-- The poll as one atomic step (`Verif/UtpStream.lean`). -/
def Poll.run (E : Env) (fuel : Nat) (go : Bool) (st : Stream) : Poll → Answer × Stream
  | .read buf =>
    let (r, b, st) := pollRead E fuel go buf st
    ((r, b), st)
  | .write buf =>
    let (r, st) := pollWrite E fuel go buf st
    ((r, buf), st)
  | .flush =>
    let (r, st) := pollFlush E fuel go st
    ((r.count, []), st)
  | .close =>
    let (r, st) := pollClose E fuel true true go st
    ((r.count, []), st)

/-- A call with everything the outside decides, and its result. -/
inductive Entry
  | poll (i : Nat) (c : Poll) (fuel : Nat) (go : Bool) (a : Answer)
  | lock (i : Nat)
  | method (i : Nat) (fuel : Nat) (op : Op) (r : PollRes Out)

/-- The number of the call. -/
def Entry.id : Entry → Nat
  | .poll i .. => i
  | .lock i => i
  | .method i .. => i

/-- The calls, one after the other, have these results. -/
inductive OneByOne (E : Env) (st0 : Stream) : List Entry → Stream → Prop
  | nil : OneByOne E st0 [] st0
  | poll {l : List Entry} {st : Stream} (i : Nat) (c : Poll) (fuel : Nat) (go : Bool) : OneByOne E st0 l st →
      OneByOne E st0 (l ++ [.poll i c fuel go (c.run E fuel go st).1]) (c.run E fuel go st).2
  | lock {l : List Entry} {st st' : Stream} (i : Nat) : OneByOne E st0 l st → st.takeLock = some st' → OneByOne E st0 (l ++ [.lock i]) st'
  | method {l : List Entry} {st : Stream} (i fuel : Nat) (op : Op) : OneByOne E st0 l st → st.lock = some .method →
      (op = .close ∨ ∃ n, op = .setMaxRetries n) →
      OneByOne E st0 (l ++ [.method i fuel op (st.runMethod E fuel op).1]) (st.runMethod E fuel op).2

/-- The call `i` ended in `h`. -/
def Ended (h : List Ev) (i : Nat) : Prop := (∃ c a, Ev.ret i c a ∈ h) ∨ Ev.lock i ∈ h ∨ ∃ fuel op r, Ev.method i fuel op r ∈ h

/-- The call `i` began in `h`. -/
def Began (h : List Ev) (i : Nat) : Prop := (∃ c, Ev.inv i c ∈ h) ∨ Ev.lock i ∈ h ∨ ∃ fuel op r, Ev.method i fuel op r ∈ h

/-- The order `l` explains what was seen: every call that ended is in it, once, with its result; every other call in it began; and a call
that ended before another one began stands before it. -/
structure Explains (h : List Ev) (l : List Entry) : Prop where
  ret : ∀ i c a, Ev.ret i c a ∈ h → Ev.inv i c ∈ h ∧ ∃ fuel go, Entry.poll i c fuel go a ∈ l
  lock : ∀ i, Ev.lock i ∈ h → Entry.lock i ∈ l
  method : ∀ i fuel op r, Ev.method i fuel op r ∈ h → Entry.method i fuel op r ∈ l
  once : (l.map Entry.id).Nodup
  began : ∀ e ∈ l, Began h e.id
  order : ∀ h1 h2 i j, h = h1 ++ h2 → Ended h1 i → ¬ Began h1 j → ∃ l1 l2, l = l1 ++ l2 ∧ i ∈ l1.map Entry.id ∧ j ∉ l1.map Entry.id

/-- No poll of a slot begins before the last one of the same slot has returned. -/
def Apart (h : List Ev) : Prop :=
  ∀ h1 h2 i j c c', h = h1 ++ Ev.inv j c :: h2 → Ev.inv i c' ∈ h1 → c'.slot = c.slot → ∃ a, Ev.ret i c' a ∈ h1

end Utp
