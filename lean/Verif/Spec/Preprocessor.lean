/-!
# Preprocessing ([cpp])

The part of the C++ preprocessor that the headers of the library use: object-like and function-like macros with `##`, conditional
inclusion, `#error`, `#pragma once`, `#include`. Names of macros are elements of an arbitrary type `N`, whose spelling is given.
Simplifications: an identifier made by `##` is not itself the name of a macro; pieces of program text that are of no interest are
single tokens.
-/

namespace Verif.Spec

/-- Preprocessing tokens. -/
inductive Tok (N : Type) where
  | id (n : N)
  | num (k : Nat)
  /-- an identifier that was made by `##` -/
  | pasted (cs : List Char)
  | lparen | comma | rparen | lbrace | rbrace
deriving DecidableEq

/-- An operand of `##` in the replacement list of a macro. -/
inductive Operand (N : Type) where
  | tok (t : Tok N)
  /-- the parameter with this number -/
  | param (i : Nat)
deriving DecidableEq

/-- A macro. The replacement list of a function-like one is a list of groups, the operands of a group are joined by `##`. -/
inductive Macro (N : Type) where
  | obj (body : List (Tok N))
  | fn (body : List (List (Operand N)))
deriving DecidableEq

/-- The macros that are defined. -/
abbrev Macros (N : Type) := N → Option (Macro N)

/-- A token with the names of the macros that may not be expanded in it any more ([cpp.rescan]/2). -/
abbrev Painted (N : Type) := Tok N × List N

/-- The arguments of an invocation after its opening parenthesis, and what follows the closing one. `depth` counts nested parentheses;
`cur` is the current argument. -/
def splitArgs {N : Type} : (depth : Nat) → (cur : List (Painted N)) → List (Painted N) →
    Option (List (List (Painted N)) × List N × List (Painted N))
  | _, _, [] => none
  | 0, cur, (.rparen, h) :: rest => some ([cur], h, rest)
  | d + 1, cur, (.rparen, h) :: rest => splitArgs d (cur ++ [(.rparen, h)]) rest
  | 0, cur, (.comma, _) :: rest => match splitArgs 0 [] rest with
    | some (as, h, r) => some (cur :: as, h, r)
    | none => none
  | d, cur, (.lparen, h) :: rest => splitArgs (d + 1) (cur ++ [(.lparen, h)]) rest
  | d, cur, t :: rest => splitArgs d (cur ++ [t]) rest

section
variable {N : Type} [DecidableEq N] (spell : N → List Char)

/-- The spelling of a token that can be an operand of `##`. -/
def Tok.spelling : Tok N → List Char
  | .id n => spell n
  | .num k => Nat.toDigits 10 k
  | .pasted cs => cs
  | _ => []

/-- `##`: the last token of the left operand is joined with the first one of the right operand ([cpp.concat]/3). -/
def paste (l r : List (Tok N)) : List (Tok N) :=
  match l.getLast?, r with
  | some a, b :: rest => l.dropLast ++ .pasted (a.spelling spell ++ b.spelling spell) :: rest
  | none, r => r
  | some _, [] => l

/-- Macro expansion ([cpp.replace], [cpp.subst], [cpp.rescan]); `none` if the invocation is malformed or the number of steps does
not suffice. A parameter is replaced by the completely expanded argument, unless it is an operand of `##`. -/
def expand (env : Macros N) : (steps : Nat) → List (Painted N) → Option (List (Tok N))
  | 0, _ => none
  | _ + 1, [] => some []
  | k + 1, (t, hide) :: rest =>
    match t with
    | .id n =>
      if n ∈ hide then (expand env k rest).map (t :: ·)
      else match env n with
        | none => (expand env k rest).map (t :: ·)
        | some (.obj body) => expand env k (body.map (·, n :: hide) ++ rest)
        | some (.fn body) => match rest with
          | (.lparen, _) :: rest' => match splitArgs 0 [] rest' with
            | none => none
            | some (args, hide', after) =>
              let hs := n :: hide.filter (· ∈ hide')
              let raw : Operand N → List (Tok N)
                | .tok t => [t]
                | .param i => (args[i]?.getD []).map Prod.fst
              let group : List (Operand N) → Option (List (Painted N))
                | [] => some []
                | [.tok t] => some [(t, hs)]
                | [.param i] => (expand env k (args[i]?.getD [])).map (·.map (·, hs))
                | o :: os => some ((os.foldl (fun l o => paste spell l (raw o)) (raw o)).map (·, hs))
              match body.mapM group with
              | none => none
              | some gs => expand env k (gs.flatten ++ after)
          | _ => (expand env k rest).map (t :: ·)
    | _ => (expand env k rest).map (t :: ·)

/-- Conditions of `#if`. -/
inductive Cond (N : Type) where
  | defined (n : N)
  /-- `n < k` -/
  | lt (n : N) (k : Nat)
  /-- `n <= k` -/
  | le (n : N) (k : Nat)
  /-- `n >= k` -/
  | ge (n : N) (k : Nat)
  | not (c : Cond N)
  | and (a b : Cond N)
  | or (a b : Cond N)
deriving DecidableEq

/-- The number that a macro stands for; what remains of an identifier after expansion is 0 ([cpp.cond]/12). Simplification: the macros
that are compared with numbers (`__cplusplus`, `_MSVC_LANG`, `__GNUC__`) are defined as numbers. -/
def Macros.num (env : Macros N) (n : N) : Nat :=
  match env n with
  | some (.obj [.num k]) => k
  | _ => 0

def Cond.eval (env : Macros N) : Cond N → Bool
  | .defined n => (env n).isSome
  | .lt n k => decide (env.num n < k)
  | .le n k => decide (env.num n ≤ k)
  | .ge n k => decide (k ≤ env.num n)
  | .not c => !c.eval env
  | .and a b => a.eval env && b.eval env
  | .or a b => a.eval env || b.eval env

/-- The text of a file. -/
inductive Dir (N : Type) where
  | nothing
  | seq (a b : Dir N)
  | define (n : N) (m : Macro N)
  | undef (n : N)
  | error
  /-- lines of program text -/
  | text (ts : List (Tok N))
  /-- `#if c` t `#else` e `#endif` -/
  | cond (c : Cond N) (t e : Dir N)
deriving DecidableEq

/-- Lines of a file one after the other. -/
def Dir.block (ds : List (Dir N)) : Dir N := ds.foldr .seq .nothing

/-- State of the preprocessor: the macros, the text so far, and whether the program is ill-formed (`#error`, or a macro is redefined
differently, [cpp.replace]/2, or an invocation is malformed). -/
structure PP (N : Type) where
  env : Macros N
  out : List (Tok N)
  failed : Bool

/-- Enough steps for the text of the headers. -/
def expandSteps : Nat := 40

/-- Process a text. -/
def Dir.run : Dir N → PP N → PP N
  | .nothing, s => s
  | .seq a b, s => b.run (a.run s)
  | .define n m, s => match s.env n with
    | none => { s with env := fun x => if x = n then some m else s.env x }
    | some m' => if m' = m then s else { s with failed := true }
  | .undef n, s => { s with env := fun x => if x = n then none else s.env x }
  | .error, s => { s with failed := true }
  | .text ts, s => match expand spell s.env expandSteps (ts.map (·, [])) with
    | some ts' => { s with out := s.out ++ ts' }
    | none => { s with failed := true }
  | .cond c t e, s => if c.eval s.env then t.run s else e.run s

/-- A line of a translation unit. -/
inductive Line (N : Type) where
  | dir (d : Dir N)
  /-- `#include` of the file with this number -/
  | incl (f : Nat)
deriving DecidableEq

/-- Process a translation unit. `files f` is the text of the file `f`, `once f`: it has `#pragma once`; `seen` are the files included
so far. -/
def preprocess (files : Nat → Dir N) (once : Nat → Bool) : (seen : List Nat) → List (Line N) → PP N → PP N
  | _, [], s => s
  | seen, .dir d :: rest, s => preprocess files once seen rest (d.run spell s)
  | seen, .incl f :: rest, s =>
    if once f = true ∧ f ∈ seen then preprocess files once seen rest s
    else preprocess files once (f :: seen) rest ((files f).run spell s)

end

end Verif.Spec
