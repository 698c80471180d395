import Verif.Model.Files

/-!
# Model of several processes at one cache file

`dump_dict` and `load_dict` as sequences of file-system calls, for processes that run at the same time and use one path (two evaluations
with one cache directory, or two jobs with the same oversampler and parameters). The file system is as on POSIX systems: a name refers to an
*inode*, `os.remove` only takes the name away, an open file stays usable; `open(.., "w")` empties the file if there is one; a `write` at a
position behind the end of the file (which another process has emptied in the meantime) fills the gap with zero characters. Every call is
atomic; the operating system may write and read any number of characters per call. All texts are ASCII.
-/

namespace Verif

/-- Progress of `dump_dict`, base/_base.py:231-266. -/
inductive Writer
  /-- takes no part -/
  | idle
  /-- before `os.path.exists(filename)`, line 251 -/
  | check
  /-- before `os.remove(filename)`, line 252 -/
  | remove
  /-- before `open(filename, "wt")`, line 254 or 261 -/
  | openFile
  /-- writing to an inode, so many characters are written, lines 256-257 -/
  | writing (inode pos : Nat)
  | done
  /-- `os.remove` has raised `FileNotFoundError` -/
  | failed
  /-- the process was killed -/
  | crashed
  deriving DecidableEq, Repr

/-- Progress of `load_dict`, base/_base.py:197-228. -/
inductive Reader
  /-- before `open(filename, "rt")`, line 215 -/
  | start
  /-- reading an inode, with the text read so far, line 216 -/
  | reading (inode : Nat) (got : List Char)
  /-- the whole text that was read, or `none` when `open` has raised `FileNotFoundError` -/
  | finished (got : Option (List Char))
  deriving DecidableEq, Repr

/-- The file system, as far as the one path is concerned, and the processes. Used for base/_base.py:197-266. -/
structure Shared where
  /-- contents of the inodes -/
  inode : Nat → List Char
  /-- the inode the path refers to, if the file exists -/
  cur : Option Nat
  /-- the next unused inode -/
  next : Nat
  writer : Nat → Writer
  reader : Nat → Reader

/-- `write` of `s` at position `pos` of a file with contents `c`. Used for base/_base.py:257. -/
def patch (c : List Char) (pos : Nat) (s : List Char) : List Char :=
  c.take pos ++ List.replicate (pos - c.length) '\x00' ++ s ++ c.drop (pos + s.length)

/-- What the path holds. Used for base/_base.py:215. -/
def Shared.file (s : Shared) : Option (List Char) := s.cur.map s.inode

/-- Writer `p` gets to `w`. Used for base/_base.py:231-266. -/
def Shared.setW (s : Shared) (p : Nat) (w : Writer) : Shared := { s with writer := Function.update s.writer p w }

/-- Reader `q` gets to `r`. Used for base/_base.py:197-228. -/
def Shared.setR (s : Shared) (q : Nat) (r : Reader) : Shared := { s with reader := Function.update s.reader q r }

/-- One call of one process; writer `p` writes the text `text p`. base/_base.py:197-266. -/
inductive SharedStep (text : Nat → List Char) : Shared → Shared → Prop
  /-- line 251, the file does not exist -/
  | checkNo (s p) : s.writer p = .check → s.cur = none → SharedStep text s (s.setW p .openFile)
  /-- line 251, the file exists -/
  | checkYes (s p k) : s.writer p = .check → s.cur = some k → SharedStep text s (s.setW p .remove)
  /-- line 252 -/
  | removeOk (s p k) : s.writer p = .remove → s.cur = some k → SharedStep text s { s.setW p .openFile with cur := none }
  /-- line 252, another process has removed the file -/
  | removeFails (s p) : s.writer p = .remove → s.cur = none → SharedStep text s (s.setW p .failed)
  /-- lines 254, 261: a new file -/
  | openNew (s p) : s.writer p = .openFile → s.cur = none →
      SharedStep text s { s.setW p (.writing s.next 0) with
        inode := Function.update s.inode s.next [], cur := some s.next, next := s.next + 1 }
  /-- lines 254, 261: an existing file, which is emptied -/
  | openOld (s p k) : s.writer p = .openFile → s.cur = some k →
      SharedStep text s { s.setW p (.writing k 0) with inode := Function.update s.inode k [] }
  /-- lines 256-257, 262: the next `n` characters -/
  | write (s p k pos n) : s.writer p = .writing k pos → 0 < n → pos + n ≤ (text p).length →
      SharedStep text s { s.setW p (.writing k (pos + n)) with
        inode := Function.update s.inode k (patch (s.inode k) pos (((text p).drop pos).take n)) }
  /-- lines 258-260, 263-265 -/
  | close (s p k) : s.writer p = .writing k (text p).length → SharedStep text s (s.setW p .done)
  /-- a process can be killed at any time -/
  | crash (s p) : s.writer p ≠ .idle → SharedStep text s (s.setW p .crashed)
  /-- line 215 -/
  | readOpen (s q k) : s.reader q = .start → s.cur = some k → SharedStep text s (s.setR q (.reading k []))
  /-- line 215, the file does not exist -/
  | readFails (s q) : s.reader q = .start → s.cur = none → SharedStep text s (s.setR q (.finished none))
  /-- line 216: at most `n` more characters -/
  | readMore (s q k got n) : s.reader q = .reading k got → 0 < n →
      SharedStep text s (s.setR q (.reading k (got ++ ((s.inode k).drop got.length).take n)))
  /-- line 216: the end of the file is reached -/
  | readEnd (s q k got) : s.reader q = .reading k got → (s.inode k).length ≤ got.length →
      SharedStep text s (s.setR q (.finished (some got)))

/-- The start: `n` writers of which each begins at `first` (`check` for json, `openFile` for pickle), any number of readers, and what the
path holds. base/_base.py:197-266. -/
def Shared.init (first : Writer) (n : Nat) (old : Option (List Char)) : Shared where
  inode := fun k => if k = 0 then old.getD [] else []
  cur := old.map (fun _ => 0)
  next := 1
  writer := fun p => if p < n then first else .idle
  reader := fun _ => .start

end Verif
