import Verif.Model.Json

/-!
# Model of the cache files: `dump_dict`, `load_dict`, `check_if_damaged`

A file system is a map from paths to contents. A crash can stop `dump_dict` between any two of its effects and inside
the write, so the model returns the list of all file-system states it passes through.
-/

namespace Verif

/-- A path or file name. Used for base/_base.py:211-212 and base/_base.py:251-252. -/
abbrev Path := List Char

/-- The file system: contents by path, `none` when the file does not exist. Used for base/_base.py:251-252 and base/_base.py:231-266. -/
abbrev Fs := Path → Option (List Char)

/-- A value stored in a record: plain python data, or a numpy array given by its nested list of entries. Arrays nested
inside plain data are not modelled. Used for base/_base.py:249-250 and base/_base.py:231-266. -/
inductive PV
  | j (v : J)
  | nd (entries : J)

/-- A record (python dictionary with string keys). Used for base/_base.py:249-250 and base/_base.py:231-266. -/
abbrev Rec := List (List Nat × PV)

/-- What a load returns: a dictionary or some other value. Used for base/_base.py:216-220 and base/_base.py:197-228. -/
inductive Loaded
  | dict (r : Rec)
  | other (v : J)

/-- Effects of the trusted `pickle` module: only its observable contract is used. Used for base/_base.py:231-266 and base/_base.py:197-228. -/
structure Pickle where
  dumps : Rec → List Char
  loads : List Char → Res Loaded

/-- Value of a key. Used for base/_base.py:249-250 and base/_base.py:219-220. -/
def recGet (r : Rec) (k : List Nat) : Option PV := (r.find? (fun p => p.1 == k)).map Prod.snd

/-- `obj[key] = v` for a key that is present (position kept). Used for base/_base.py:249-250 and base/_base.py:219-220. -/
def recSet (r : Rec) (k : List Nat) (v : PV) : Rec := r.map (fun p => if p.1 == k then (k, v) else p)

mutual
/-- Apply `g` to the text of every number (`astype(float)` on the entries of an array). Used for base/_base.py:249-250. -/
def mapNum (g : List Char → List Char) : J → J
  | .num t => .num (g t)
  | .arr xs => .arr (mapNums g xs)
  | v => v
/-- `mapNum` on a list. Used for base/_base.py:249-250. -/
def mapNums (g : List Char → List Char) : List J → List J
  | [] => []
  | x :: xs => mapNum g x :: mapNums g xs
end

/-- base/_base.py:212, 246: `serialization = filename.split(".")[-1]` when not given. -/
def lastPart (s : List Char) : List Char := (s.reverse.takeWhile (· ≠ '.')).reverse

/-- base/_base.py:211-212, 245-246. -/
def serOf (ser : Option (List Char)) (filename : Path) : List Char := ser.getD (lastPart filename)

/-- The string `json`. Used for base/_base.py:231-266 and base/_base.py:197-228. -/
def sJson : List Char := ['j', 's', 'o', 'n']
/-- The string `pickle`. Used for base/_base.py:231-266 and base/_base.py:197-228. -/
def sPickle : List Char := ['p', 'i', 'c', 'k', 'l', 'e']

/-- base/_base.py:249-250, the body of the loop: `obj[key] = obj[key].astype(float).tolist()`. A missing key raises
`KeyError`; a value that is not an array raises `AttributeError`. -/
def convertOne (g : List Char → List Char) (r : Rec) (k : List Nat) : Res Rec :=
  match recGet r k with
  | none => throw .keyError
  | some (.j _) => throw .attributeError
  | some (.nd e) => pure (recSet r k (.j (mapNum g e)))

/-- base/_base.py:249-250, the loop: the (mutated) dictionary and the error that stopped it, if any. -/
def convertArrays (g : List Char → List Char) : Rec → List (List Nat) → Rec × Res Unit
  | r, [] => (r, .ok ())
  | r, k :: ks =>
    match convertOne g r k with
    | .error e => (r, .error e)
    | .ok r' => convertArrays g r' ks

/-- `json.dumps(obj)` on a record: a remaining array raises `TypeError`. Used for base/_base.py:231-266. -/
def recJ : Rec → Res (List (List Nat × J))
  | [] => pure []
  | (k, .j v) :: r => do pure ((k, v) :: (← recJ r))
  | (_, .nd _) :: _ => throw .typeError

/-- The prefixes of a text, shortest first: the contents of the file while it is being written. Used for base/_base.py:231-266. -/
def prefixes (text : List Char) : List (List Char) := (List.range (text.length + 1)).map (fun n => text.take n)

/-- Outcome of `dump_dict`. Used for base/_base.py:231-266. -/
structure DumpOut where
  /-- the dictionary of the caller afterwards (json mutates it) -/
  obj : Rec
  /-- the file-system states passed through, in order -/
  states : List Fs
  /-- the state reached when the call ends -/
  final : Fs
  /-- how the call ends -/
  res : Res Unit

/-- base/_base.py:251-252: the states of removing an existing file. -/
def removed (fs : Fs) (filename : Path) : List Fs :=
  if (fs filename).isSome then [Function.update fs filename none] else []

/-- base/_base.py:231-266, `dump_dict`. `g` turns the text of a number into the text of the same number as a float. -/
def dumpDict (pk : Pickle) (g : List Char → List Char) (fs : Fs) (obj : Rec) (filename : Path)
    (ser : Option (List Char)) (arrays : List (List Nat)) : DumpOut :=
  if serOf ser filename = sJson then
    let c := convertArrays g obj arrays
    match c.2 with
    | .error e => ⟨c.1, [fs], fs, .error e⟩
    | .ok _ =>
      match recJ c.1 with
      | .error e =>
        ⟨c.1, [fs] ++ removed fs filename ++ [Function.update fs filename (some [])],
          Function.update fs filename (some []), .error e⟩
      | .ok kvs =>
        ⟨c.1, [fs] ++ removed fs filename ++
            (prefixes (encJ (.obj kvs))).map (fun t => Function.update fs filename (some t)),
          Function.update fs filename (some (encJ (.obj kvs))), .ok ()⟩
  else if serOf ser filename = sPickle then
    ⟨obj, [fs] ++ (prefixes (pk.dumps obj)).map (fun t => Function.update fs filename (some t)),
      Function.update fs filename (some (pk.dumps obj)), .ok ()⟩
  else ⟨obj, [fs], fs, .error .valueError⟩

/-- base/_base.py:219-220, `obj[key] = np.array(obj[key])` on the loaded value. -/
def restoreArrays : Rec → List (List Nat) → Res Rec
  | r, [] => pure r
  | r, k :: ks =>
    match recGet r k with
    | none => throw .keyError
    | some (.j v) => restoreArrays (recSet r k (.nd v)) ks
    | some (.nd v) => restoreArrays (recSet r k (.nd v)) ks

/-- base/_base.py:216-220 on the decoded value: indexing anything but a dictionary with a key raises `TypeError`. -/
def restore (v : J) (arrays : List (List Nat)) : Res Loaded :=
  match v with
  | .obj kvs => do pure (.dict (← restoreArrays (kvs.map (fun p => (p.1, PV.j p.2))) arrays))
  | v => if arrays = [] then pure (.other v) else throw .typeError

/-- base/_base.py:197-228, `load_dict`. -/
def loadDict (pk : Pickle) (fs : Fs) (filename : Path) (ser : Option (List Char)) (arrays : List (List Nat)) :
    Res Loaded :=
  if serOf ser filename = sJson then
    match fs filename with
    | none => throw .fileNotFound
    | some text =>
      match decodeJ (2 * text.length + 2) text with
      | none => throw .jsonDecode
      | some v => restore v arrays
  else if serOf ser filename = sPickle then
    match fs filename with
    | none => throw .fileNotFound
    | some text => pk.loads text
  else throw .valueError

/-- base/_base.py:269-289, `check_if_damaged`: only `FileNotFoundError` and `JSONDecodeError` are caught. -/
def checkIfDamaged (pk : Pickle) (fs : Fs) (filename : Path) (ser : List Char) : Res Bool :=
  match loadDict pk fs filename (some ser) [] with
  | .ok _ => pure false
  | .error .fileNotFound => pure true
  | .error .jsonDecode => pure true
  | .error e => throw e

end Verif
