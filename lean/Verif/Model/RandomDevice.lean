/-!
# Model of `random_device`

`src/random_device.cpp` for POSIX systems (lines 154-252) and `include/boost/random/random_device.hpp`. The code for Windows is not
modelled. The operating system (`open`, `read`, `close`) is modelled as POSIX specifies it: which calls fail and how many bytes a call of `read`
delivers is left open (`Outcome`, `OpenOutcome`, `Os.closes`).
-/

namespace Boost.Random
namespace RandomDevice

/-! ## The operating system -/

/-- What the system does at a call of `read` for a positive number of bytes: it fails with an error number, or gives at most `k + 1` bytes. -/
inductive Outcome where
  | give (k : Nat)
  | fail (errno : Nat)
  deriving DecidableEq

/-- An open file description: the bytes of the device (none: the end of the file), the outcomes of the calls of `read`, the position and the
number of calls so far. -/
structure File where
  data : Nat → Option (Fin 256)
  plan : Nat → Outcome
  pos : Nat
  reads : Nat

/-- The bytes from a position up to the end of the file, at most `n`. -/
def bytesAt (data : Nat → Option (Fin 256)) : (pos n : Nat) → List (Fin 256)
  | _, 0 => []
  | pos, n + 1 => match data pos with
    | none => []
    | some b => b :: bytesAt data (pos + 1) n

/-- What `read` returns: `-1` and `errno`, or the bytes it has stored. -/
inductive ReadResult where
  | minusOne (errno : Nat)
  | got (bytes : List (Fin 256))
  deriving DecidableEq

/-- `read(fd, buf, cnt)` of POSIX on an open file. -/
def File.read (f : File) (cnt : Nat) : ReadResult × File :=
  match f.plan f.reads with
  | .fail e => (.minusOne e, { f with reads := f.reads + 1 })
  | .give k =>
    let bs := bytesAt f.data f.pos (min (k + 1) cnt)
    (.got bs, { f with pos := f.pos + bs.length, reads := f.reads + 1 })

/-! ## Reading a number -/

/-- The exceptions of the library and of its documentation. -/
inductive Exn where
  | systemError (code : Nat) (what : String)
  | iosFailure
  deriving DecidableEq

/-- How a call ends. -/
inductive Outcome4 (α β : Type) where
  | ok (a : α) (s : β)
  | throws (e : Exn) (s : β)
  | ub
  | stuck

/-- `error(msg)`; random_device.cpp:217-224. `errno` is the error number of the failed call. -/
def error (path : String) (msg : String) (errno : Nat) : Exn :=
  .systemError errno ("boost::random_device: " ++ msg ++ " random-number pseudo-device " ++ path)

/-- Storing bytes from an offset on; the memory of `result` is four bytes that are indeterminate (`none`) at first. Beyond the end: undefined. -/
def store (mem : List (Option (Fin 256))) (offset : Nat) (bs : List (Fin 256)) : Option (List (Option (Fin 256))) :=
  if offset + bs.length ≤ mem.length then some (mem.take offset ++ bs.map some ++ mem.drop (offset + bs.length)) else none

/-- The number in memory, on a machine of either byte order. An indeterminate byte: undefined. -/
def load (little : Bool) (mem : List (Option (Fin 256))) : Option Nat :=
  (mem.mapM id).map fun bs => ((if little then bs.reverse else bs).foldl (fun v b => v * 256 + b.val) 0)

/-- The loop of `next`; random_device.cpp:203-212. `fuel` bounds the number of iterations; `stuck` if there are more. -/
def loop (path : String) (little : Bool) : (fuel : Nat) → (mem : List (Option (Fin 256))) → (offset : Nat) → File → Outcome4 Nat File
  | 0, _, _, _ => .stuck
  | fuel + 1, mem, offset, f =>
    match f.read (4 - offset) with
    | (.minusOne e, f') => .throws (error path "error while reading" e) f'
    | (.got bs, f') =>
      if bs.length = 0 then .throws (error path "EOF while reading" 0) f'
      else match store mem offset bs with
        | none => .ub
        | some mem' =>
          if offset + bs.length < 4 then loop path little fuel mem' (offset + bs.length) f'
          else match load little mem' with
            | none => .ub
            | some v => .ok v f'

/-- `next()`; random_device.cpp:200-214. -/
def next (path : String) (little : Bool) (fuel : Nat) (f : File) : Outcome4 Nat File := loop path little fuel (List.replicate 4 none) 0 f

/-- `generate(begin, end)` for a range of `n` elements; random_device.hpp:124-130. If a call throws, the elements before keep the numbers stored. -/
def generate (path : String) (little : Bool) (fuel : Nat) : (n : Nat) → File → List Nat × Outcome4 Unit File
  | 0, f => ([], .ok () f)
  | n + 1, f => match next path little fuel f with
    | .ok v f' => let r := generate path little fuel n f'; (v :: r.1, r.2)
    | .throws e f' => ([], .throws e f')
    | .ub => ([], .ub)
    | .stuck => ([], .stuck)

/-- `min()`, `max()`; random_device.hpp:96-98. -/
def minv : Nat := 0

/-- `max()`; random_device.hpp:98. -/
def maxv : Nat := 2 ^ 32 - 1

/-- `entropy()`; random_device.cpp:244-247. -/
def entropy : Nat := 10

/-! ## Opening and closing -/

/-- What the system does at a call of `open`: it fails, or opens a device. -/
inductive OpenOutcome where
  | ok (data : Nat → Option (Fin 256)) (plan : Nat → Outcome)
  | fail (errno : Nat)

/-- The system: the table of descriptors, the outcomes of the calls of `open` and of `close` (an error number: the call fails), and their counts. -/
structure Os where
  table : List (Nat × File)
  opens : Nat → String → OpenOutcome
  closes : Nat → Option Nat
  opened : Nat
  closed : Nat

/-- The lowest number from `n` on that is no descriptor; `fuel` is one more than the size of the table. -/
def lowestFree (table : List (Nat × File)) : (fuel n : Nat) → Nat
  | 0, n => n
  | fuel + 1, n => if n ∈ table.map Prod.fst then lowestFree table fuel (n + 1) else n

/-- `open(path, O_RDONLY)` of POSIX: the lowest descriptor that is not in use. -/
def Os.open (o : Os) (path : String) : (Nat ⊕ Nat) × Os :=
  match o.opens o.opened path with
  | .fail e => (.inr e, { o with opened := o.opened + 1 })
  | .ok data plan =>
    let fd := lowestFree o.table (o.table.length + 1) 0
    (.inl fd, { o with table := (fd, ⟨data, plan, 0, 0⟩) :: o.table, opened := o.opened + 1 })

/-- `close(fd)` of POSIX; returns the error number if it returns `-1`. The number 9 is `EBADF`. A descriptor is released also if an error is reported,
as on Linux. -/
def Os.close (o : Os) (fd : Nat) : Option Nat × Os :=
  if fd ∈ o.table.map Prod.fst then
    (o.closes o.closed, { o with table := o.table.filter (fun p => p.1 ≠ fd), closed := o.closed + 1 })
  else (some 9, { o with closed := o.closed + 1 })

/-- Data members of `impl`; random_device.cpp:225-226. -/
structure Impl where
  path : String
  fd : Nat
  deriving DecidableEq

/-- `default_token`; random_device.cpp:157. -/
def defaultToken : String := "/dev/urandom"

/-- `impl(token)`, called by the constructors of `random_device`; random_device.cpp:192-196 and 231-237. A token is taken to hold no character zero. -/
def construct (token : String) (o : Os) : Outcome4 Impl Os :=
  match o.open token with
  | (.inl fd, o') => .ok ⟨token, fd⟩ o'
  | (.inr e, o') => .throws (error token "cannot open" e) o'

/-- `~random_device()` and `~impl()`; random_device.cpp:198 and 239-242. An exception from a destructor ends the program (`none`). -/
def destroy (p : Impl) (o : Os) : Option Os :=
  match o.close p.fd with
  | (none, o') => some o'
  | (some _, _) => none

/-- `operator()`; random_device.cpp:249-252: `next` on the file of the descriptor. A descriptor that is not open: `read` fails with `EBADF` (9). -/
def call (little : Bool) (fuel : Nat) (p : Impl) (o : Os) : Outcome4 Nat Os :=
  match o.table.find? (fun q => q.1 = p.fd) with
  | none => .throws (error p.path "error while reading" 9) o
  | some q =>
    let put (f : File) : Os := { o with table := o.table.map fun r => if r.1 = p.fd then (r.1, f) else r }
    match next p.path little fuel q.2 with
    | .ok v f => .ok v (put f)
    | .throws e f => .throws e (put f)
    | .ub => .ub
    | .stuck => .stuck

/-! ## Programs that use devices -/

/-- What a program does: it creates, calls and destroys objects, which it names by numbers. -/
inductive Action where
  | create (name : Nat) (token : String)
  | use (name : Nat)
  | drop (name : Nat)
  deriving DecidableEq

/-- The objects alive and the system. -/
structure Prog where
  alive : List (Nat × Impl)
  os : Os

/-- What an action gives to the program. -/
inductive Reply where
  | created
  | value (v : Nat)
  | caught (e : Exn)
  | dropped
  deriving DecidableEq

/-- How an action ends: with a reply, undefined behaviour (an object that does not exist or a name in use), or the end of the program by an exception
from a destructor. -/
inductive StepResult where
  | reply (r : Reply) (s : Prog)
  | ub
  | terminate

/-- One action; a program catches the exceptions of the library. An object whose constructor throws does not come to life; an object stays alive if a
call throws. `random_device` cannot be copied (random_device.hpp:89), so each object has its own descriptor. -/
def step (little : Bool) (fuel : Nat) (s : Prog) : Action → StepResult
  | .create name token =>
    if name ∈ s.alive.map Prod.fst then .ub
    else match construct token s.os with
      | .ok p o => .reply .created ⟨(name, p) :: s.alive, o⟩
      | .throws e o => .reply (.caught e) ⟨s.alive, o⟩
      | _ => .ub
  | .use name => match s.alive.find? (fun q => q.1 = name) with
    | none => .ub
    | some q => match call little fuel q.2 s.os with
      | .ok v o => .reply (.value v) ⟨s.alive, o⟩
      | .throws e o => .reply (.caught e) ⟨s.alive, o⟩
      | _ => .ub
  | .drop name => match s.alive.find? (fun q => q.1 = name) with
    | none => .ub
    | some q => match destroy q.2 s.os with
      | some o => .reply .dropped ⟨s.alive.filter (fun q => q.1 ≠ name), o⟩
      | none => .terminate

/-- All actions of a program, one after the other. -/
def exec (little : Bool) (fuel : Nat) (s : Prog) : List Action → Option (List Reply × Prog)
  | [] => some ([], s)
  | a :: as => match step little fuel s a with
    | .reply r s' => (exec little fuel s' as).map fun p => (r :: p.1, p.2)
    | _ => none

end RandomDevice
end Boost.Random
