import Verif.Model.Aod1b
/-
The tool that downloads AOD1B files (bin/getAod1b.py), as a sequence of operations on a directory and on the server; it may be stopped (killed, the
network lost, the disk full) between any two of them.

Simplifications: a date is a number of days, `strftime` is a parameter; a byte is a character; data received are written one byte at a time (the program
writes buffers: what a stopped run leaves is one of the states here); what `gzip` decodes from a text, and whether it then raises an exception, is a
parameter; the arguments are given as `argparse` delivers them; nobody else changes the directory; messages are not modelled.
-/
namespace Verif.GetAod1b
open Verif.Aod1b

abbrev Text := List Char

/-- The dates of `datetime` (the first day and the one after the last), `strftime('%Y-%m-%d')`, `strftime('%Y')` and `gzip` (the text decoded; false
if an exception follows it). -/
structure Env where
  first : Int
  last : Int
  ymd : Int → Text
  year : Int → Text
  gunzip : Text → Text × Bool

/-- The arguments (getAod1b.py:54-106); `tend` is optional. -/
structure Args where
  tfrom : Int
  tend : Option Int
  rl : Int
  out : Text
  tidal : Bool
  dcmp : Bool

/-- The server: its directories and their files. -/
abbrev Server := Text → Option (Text → Option Text)

/-- The files by their path. -/
abbrev Disk := Text → Option Text

/-- `str.replace` for a text to be replaced that is not empty; `skip` is what remains of an occurrence. -/
def replaceFrom (old new : Text) : Text → Nat → Text
  | [], _ => []
  | _ :: s, skip + 1 => replaceFrom old new s skip
  | c :: s, 0 => if old.isPrefixOf (c :: s) then new ++ replaceFrom old new s (old.length - 1) else c :: replaceFrom old new s 0

/-- `s.replace(old, new)`. -/
def replace (s old new : Text) : Text := replaceFrom old new s 0

/-- `os.path.join(dir, name)` for a relative name. -/
def join (dir name : Text) : Text :=
  if dir = [] then name else if dir.getLast? = some '/' then dir ++ name else dir ++ '/' :: name

/-- `product_name` (getAod1b.py:18-23) for the non-tidal product: name and directory. -/
def productName (E : Env) (t : Int) (rl : Int) : Text × Text :=
  (replace (replace "AOD1B_DATE_X_RL.asc.gz".toList "DATE".toList (E.ymd t)) "RL".toList (dec2 rl),
   replace (replace "/grace/Level-1B/GFZ/AOD/RLNN/YYYY".toList "YYYY".toList (E.year t)) "NN".toList (dec2 rl))

/-- The program, operation by operation: it ends with a status or an exception, asks whether a file exists, changes to a directory of the server,
opens a file for writing, requests a file, writes a byte, reads a file. -/
inductive Prog where
  | exit (code : Nat)
  | raise
  | isfile (p : Text) (k : Bool → Prog)
  | cwd (dir : Text) (k : Option (Text → Option Text) → Prog)
  | create (p : Text) (k : Prog)
  | retr (r : Option Text) (k : Option Text → Prog)
  | append (p : Text) (c : Char) (k : Prog)
  | read (p : Text) (k : Option Text → Prog)

/-- The bytes of a text, written one after the other. -/
def writeAll (p : Text) : Text → Prog → Prog
  | [], k => k
  | c :: s, k => .append p c (writeAll p s k)

/-- `ftpget` (getAod1b.py:25-34): the file is opened before the server is asked. -/
def ftpget (dir fn saveas : Text) (k : Prog) : Prog :=
  .cwd dir fun
  | none => .raise
  | some files => .create saveas (.retr (files fn) fun
    | none => .raise
    | some data => writeAll saveas data k)

/-- Decompression (getAod1b.py:123-129). -/
def decompress (E : Env) (dcmp : Bool) (saveas : Text) (k : Prog) : Prog :=
  if ".gz".toList.isSuffixOf saveas && dcmp then
    .read saveas fun
    | none => .raise
    | some data => .create (saveas.take (saveas.length - 3)) (writeAll (saveas.take (saveas.length - 3)) (E.gunzip data).1
        (if (E.gunzip data).2 then k else .raise))
  else k

/-- The check and what follows it (getAod1b.py:119-129). -/
def finish (E : Env) (dcmp : Bool) (saveas : Text) (k : Prog) : Prog :=
  .isfile saveas fun a =>
  if a then decompress E dcmp saveas k
  else .isfile (replace saveas ".gz".toList []) fun b => if b then decompress E dcmp saveas k else .exit 9

/-- The body of the loop (getAod1b.py:112-131). For the tidal product no name is assigned, and the function raises `UnboundLocalError`. -/
def day (E : Env) (A : Args) (t : Int) (k : Prog) : Prog :=
  if A.tidal then .raise
  else
    let fn := (productName E t A.rl).1
    let gz := join A.out fn
    let asc := join A.out (replace fn ".gz".toList [])
    .isfile gz fun a =>
    if a then .isfile gz fun b => finish E A.dcmp (if b then gz else asc) k
    else .isfile asc fun c =>
      if c then .isfile gz fun b => finish E A.dcmp (if b then gz else asc) k
      else ftpget (productName E t A.rl).2 fn gz (finish E A.dcmp gz k)

/-- `while t < args.tend`, with `n` days to go. -/
def loop (E : Env) (A : Args) : Int → Nat → Prog
  | _, 0 => .exit 0
  | t, n + 1 => day E A t (loop E A (t + 1) n)

/-- The program (getAod1b.py:105-131). -/
def main (E : Env) (A : Args) : Prog := loop E A A.tfrom (A.tend.getD (A.tfrom + 1) - A.tfrom).toNat

/-- One operation. -/
def step (S : Server) : Prog × Disk → Prog × Disk
  | (.exit c, D) => (.exit c, D)
  | (.raise, D) => (.raise, D)
  | (.isfile p k, D) => (k (D p).isSome, D)
  | (.cwd dir k, D) => (k (S dir), D)
  | (.create p k, D) => (k, fun q => if q = p then some [] else D q)
  | (.retr r k, D) => (k r, D)
  | (.append p c k, D) => (k, fun q => if q = p then some ((D p).getD [] ++ [c]) else D q)
  | (.read p k, D) => (k (D p), D)

/-- The state after `n` operations: what a run that is stopped there leaves. -/
def after (S : Server) (n : Nat) (s : Prog × Disk) : Prog × Disk := (step S)^[n] s

end Verif.GetAod1b
