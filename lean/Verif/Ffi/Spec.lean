import Verif.Ffi.Table
/-
What the documentation of concrete-core-ffi (lib.rs:72-132 and the comments of the functions) promises to a caller
and asks of them, written from the point of view of the caller: nothing here looks at the heap of the library.
-/
namespace Verif.Ffi

/-- The objects that the caller thinks they own: address and type. -/
abbrev Ledger := Nat → Option Kind

/-- A pointer that a checked function refuses: null or misaligned (lib.rs:85). -/
def Bad (a p : Nat) : Prop := p = 0 ∨ p % a ≠ 0

/-- The arguments that a caller may pass to a checked function: anything null or misaligned; otherwise an object of
the right type that they own, or the address of a variable of theirs. The memory behind a `raw` pointer is
assumed to be as large as announced. -/
def ArgOk (P : Platform) (own : Ledger) (m : Mem) : ArgTy → Nat → Prop
  | .ref k, p => Bad (P.align k) p ∨ own p = some k
  | .destroyed k, p => Bad (P.align k) p ∨ own p = some k
  | .result _, p => Bad 8 p ∨ (m p).isSome
  | .resultBuf, p => Bad 8 p ∨ (m p).isSome
  | .consumed k, p => Bad 8 p ∨ ∃ q n, m p = some (q, n) ∧ (Bad (P.align k) q ∨ own q = some k)
  | .destroyedBuf, p => Bad 8 p ∨ ∃ q n, m p = some (q, n) ∧ (q = 0 ∨ own q = some (.bytes n))
  | .raw _, _ => True
  | .view, _ => True
  | .int, _ => True

/-- The parameters that are addresses of variables of the caller. -/
def ArgTy.isSlot : ArgTy → Bool
  | .result _ | .consumed _ | .resultBuf | .destroyedBuf => true
  | _ => false

/-- A call that respects the documentation: the arguments are as above and do not alias. -/
structure Legal (P : Platform) (own : Ledger) (m : Mem) (c : Call) : Prop where
  args : ∀ i t, c.fn.sig[i]? = some t → ArgOk P own m t (c.arg i)
  apart : ∀ i j t u, i ≠ j → c.fn.sig[i]? = some t → c.fn.sig[j]? = some u → t.isSlot → u.isSlot →
    c.arg i = c.arg j → Bad 8 (c.arg i)

/-- How the caller updates their ledger from one argument, the returned code, and their memory before and after:
* a result is theirs when the code is 0;
* an object given to a destroy function is gone when the code is 0;
* a key given to a function that consumes it, and a destroyed buffer, are gone when the variable has been set to
  null ("the passed input pointer is set to NULL by this function"). -/
def note (code : Nat) (before after : Mem) (own : Ledger) : ArgTy → Nat → Ledger
  | .result k, p =>
    match code, after p with
    | 0, some (q, _) => Function.update own q (some k)
    | _, _ => own
  | .resultBuf, p =>
    match code, after p with
    | 0, some (q, n) => Function.update own q (some (.bytes n))
    | _, _ => own
  | .destroyed _, p => if code = 0 then Function.update own p none else own
  | .consumed _, p =>
    match before p, after p with
    | some (q, _), some (0, _) => Function.update own q none
    | _, _ => own
  | .destroyedBuf, p =>
    match before p, after p with
    | some (q, _), some (0, _) => Function.update own q none
    | _, _ => own
  | _, _ => own

/-- The ledger after a call. -/
def noteCall (c : Call) (code : Nat) (before after : Mem) (own : Ledger) : Ledger :=
  c.fn.sig.zipIdx.foldl (fun o x => note code before after o x.1 (c.arg x.2)) own

/-- The parameters that a checked function checks. -/
def ArgTy.pointer : ArgTy → Bool
  | .view | .int => false
  | _ => true

/-- The slots that a function reads. -/
def ArgTy.inSlot : ArgTy → Bool
  | .consumed _ | .destroyedBuf => true
  | _ => false

/-- A pointer of the call that a checked function must refuse. -/
inductive Refused (P : Platform) (m : Mem) (c : Call) : Prop
  | arg {i : Nat} {t} (ht : c.fn.sig[i]? = some t) (hp : t.pointer = true) (hb : Bad (t.align P) (c.arg i))
  | loaded {i : Nat} {t} {q : Nat × Nat} (ht : c.fn.sig[i]? = some t) (hs : t.inSlot = true) (hm : m (c.arg i) = some q)
      (hb : Bad (t.loadedAlign P) q.1)

/-- The conditions under which the interface keeps its promises (see Props.lean): a serialized vector has no spare
capacity; no `BufferView` is null; the engine does not fail in a function that consumes a key. -/
structure Lucky (c : Call) : Prop where
  cap : c.len = c.cap
  view : ∀ i : Nat, c.fn.sig[i]? = some ArgTy.view → c.arg i ≠ 0
  consume : ∀ (i : Nat) (k : Kind), c.fn.sig[i]? = some (ArgTy.consumed k) → ∀ j, c.good j = true

/-- The histories: starting with nothing, the caller calls functions of `fns` in any order, with calls that satisfy
`ok`, and between two calls puts what they like in their variables. -/
inductive Reach (P : Platform) (fns : List Fn) (ok : Call → Prop) : Heap → Ledger → Prop
  | start : Reach P fns ok (fun _ => none) (fun _ => none)
  | step {h own m c code h' m'} : Reach P fns ok h own → c.fn ∈ fns → ok c → Legal P own m c →
      call P h m c = .ret code h' m' → Reach P fns ok h' (noteCall c code m m' own)

end Verif.Ffi
