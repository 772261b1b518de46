import Verif.Csprng.Model
/-
The program of concrete-csprng/src/main.rs, which writes the bytes of a generator on its standard output.
-/
namespace Verif.Csprng

variable {α : Type} [Inhabited α]

/-- main.rs:38-41: the buffer is zipped with the generator. `zip` asks the buffer first, so that no byte is drawn past its end,
and stops at the first `None` of the generator: the rest of the buffer keeps its content. Outer `none`: panic. -/
def fillBuffer (m : Build) (aes : Cipher α) : List α → Gen α → Option (List α × Gen α)
  | [], g => some ([], g)
  | b :: bs, g =>
    match g.next m aes with
    | none => none
    | some (none, g') => some (b :: bs, g')
    | some (some x, g') =>
      match fillBuffer m aes bs g' with
      | none => none
      | some (xs, g'') => some (x :: xs, g'')

/-- main.rs:37-43: the bytes written by the first `n` turns of the loop, from a buffer and a generator. The standard output is
assumed to accept the bytes. -/
def written (m : Build) (aes : Cipher α) : Nat → List α → Gen α → Option (List α)
  | 0, _, _ => some []
  | n + 1, buf, g =>
    match fillBuffer m aes buf g with
    | none => none
    | some (buf', g') =>
      match written m aes n buf' g' with
      | none => none
      | some out => some (buf' ++ out)

/-- main.rs:32-44 `main`, its first `n` turns: the generator is made from a seed (33-34), which gives the cipher `aes`; the
buffer has 16 zero bytes (36). The seed is external. -/
def mainOutput (m : Build) (aes : Cipher α) (zero : α) (n : Nat) : Option (List α) :=
  match (Gen.new none none : Option (Gen α)) with
  | none => none
  | some g => written m aes n (List.replicate 16 zero) g

end Verif.Csprng
