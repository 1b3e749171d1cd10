import Verif.Falcon.Model
import Verif.Epervier.Model

/-! # The command-line tool `pythonref/sign_cli.py` -/

namespace Verif.Cli

open Verif Verif.Hash Verif.Falcon

abbrev Text := List Char

/-! ## Python text functions -/

/-- The character of a decimal or hexadecimal digit (lower case). -/
def digit (d : Nat) : Char := if d < 10 then Char.ofNat (48 + d) else Char.ofNat (87 + d)

/-- The value of a character as a digit in base `base ≤ 16`, upper or lower case. -/
def digitVal (base : Nat) (c : Char) : Option Nat :=
  let n := c.toNat
  let v := if 48 ≤ n ∧ n ≤ 57 then n - 48 else if 97 ≤ n ∧ n ≤ 102 then n - 87 else if 65 ≤ n ∧ n ≤ 70 then n - 55 else 16
  if v < base then some v else none

/-- `str(n)` for `n ≥ 0`; the first argument bounds the number of digits. -/
def fmtNatLoop : Nat → Nat → Text
  | 0, _ => []
  | fuel + 1, n => if n < 10 then [digit n] else fmtNatLoop fuel (n / 10) ++ [digit (n % 10)]

def fmtNat (n : Nat) : Text := fmtNatLoop (n + 1) n

/-- `str(x)` for an integer. -/
def fmtInt (x : Int) : Text := if x < 0 then '-' :: fmtNat x.natAbs else fmtNat x.natAbs

/-- `sep.join(parts)`. -/
def join (sep : Text) : List Text → Text
  | [] => []
  | [a] => a
  | a :: as => a ++ sep ++ join sep as

/-- `str(l)` for a list of integers. -/
def fmtList (l : List Int) : Text := ['['] ++ join [',', ' '] (l.map fmtInt) ++ [']']

/-- `s.split(c)` for one character. -/
def splitOn (c : Char) : Text → List Text
  | [] => [[]]
  | x :: r =>
    if x = c then [] :: splitOn c r
    else match splitOn c r with
      | [] => [[x]]
      | a :: as => (x :: a) :: as

/-- `data.splitlines()` for text whose only line break is `\n`: a final empty piece is dropped. -/
def splitLines (data : Text) : List Text :=
  let ls := splitOn '\n' data
  if ls.getLast? = some [] then ls.dropLast else ls

/-- ASCII white space. -/
def isSpace (c : Char) : Bool := c = ' ' || c = '\t' || c = '\n' || c = '\r'

/-- `s.lstrip()`. -/
def lstrip (s : Text) : Text := s.dropWhile isSpace
/-- `s.strip()`. -/
def strip (s : Text) : Text := ((lstrip s).reverse.dropWhile isSpace).reverse

/-- Digits only, at least one. -/
def parseNat (base : Nat) (s : Text) : Option Nat :=
  if s = [] then none
  else s.foldl (fun acc c => match acc, digitVal base c with
    | some a, some d => some (a * base + d)
    | _, _ => none) (some 0)

/-- `int(s)` for an optionally signed decimal number surrounded by white space.  Simplified: underscores are not accepted. -/
def parseInt (s : Text) : Except Err Int :=
  match strip s with
  | '-' :: r => match parseNat 10 r with
    | some n => .ok (-(n : Int))
    | none => .error .valueError
  | '+' :: r => match parseNat 10 r with
    | some n => .ok n
    | none => .error .valueError
  | r => match parseNat 10 r with
    | some n => .ok n
    | none => .error .valueError

/-- The Python values in key files: an integer (an address) or a list of integers (a polynomial). -/
inductive Val where
  | int (x : Int)
  | list (l : List Int)
deriving Repr, DecidableEq

/-- `str(v)`. -/
def fmtVal : Val → Text
  | .int x => fmtInt x
  | .list l => fmtList l

def parseInts : List Text → Except Err (List Int)
  | [] => .ok []
  | s :: ss => match parseInt s with
    | .error e => .error e
    | .ok x => match parseInts ss with
      | .error e => .error e
      | .ok l => .ok (x :: l)

/-- `ast.literal_eval(s)`, restricted to integers and flat lists of integers (everything else raises here). -/
def literalEval (s : Text) : Except Err Val :=
  match strip s with
  | '[' :: r =>
    if r.getLast? = some ']' then
      let inner := r.dropLast
      if strip inner = [] then .ok (.list [])
      else match parseInts (splitOn ',' inner) with
        | .error e => .error e
        | .ok l => .ok (.list l)
    else .error .valueError
  | r => match parseInt r with
    | .error e => .error e
    | .ok x => .ok (.int x)

/-- `b.hex()`. -/
def hexOf (b : Bytes) : Text := b.flatMap fun x => [digit (x / 16), digit (x % 16)]

/-- `bytes.fromhex(s)`: pairs of hexadecimal digits, white space allowed between them. -/
def fromHex : Text → Except Err Bytes
  | [] => .ok []
  | c :: r =>
    if isSpace c then fromHex r
    else match r with
      | [] => .error .valueError
      | d :: r' => match digitVal 16 c, digitVal 16 d with
        | some a, some b => match fromHex r' with
          | .error e => .error e
          | .ok l => .ok ((a * 16 + b) :: l)
        | _, _ => .error .valueError

/-- `template.format(*args)` for templates whose only braces are `{}`: a placeholder without argument raises IndexError; superfluous arguments are ignored. -/
def pyFormat : Text → List Text → Except Err Text
  | [], _ => .ok []
  | '{' :: '}' :: r, args => match args with
    | [] => .error .indexError
    | a :: as => match pyFormat r as with
      | .error e => .error e
      | .ok t => .ok (a ++ t)
  | c :: r, args => match pyFormat r args with
    | .error e => .error e
    | .ok t => .ok (c :: t)

/-! ## Key files -/

def falconV : Text := "falcon".toList
def ethfalconV : Text := "ethfalcon".toList
def falconrecV : Text := "falconrec".toList
def epervierV : Text := "epervier".toList

/-- One line `name = value`. -/
def assignLine (name value : Text) : Text := name ++ " = ".toList ++ value ++ ['\n']

/-- `save_pk`, sign_cli.py 41-46: the text of the file. -/
def savePk (n : Nat) (pk : Val) (version : Text) : Text :=
  "# public key\n".toList ++ assignLine "n".toList (fmtNat n) ++ assignLine "pk".toList (fmtVal pk) ++ assignLine "version".toList version

/-- `save_sk`, sign_cli.py 49-57. -/
def saveSk (n : Nat) (f g F G : List Int) (version : Text) : Text :=
  "# private key\n".toList ++ assignLine "n".toList (fmtNat n) ++ assignLine "f".toList (fmtList f) ++ assignLine "g".toList (fmtList g) ++
    assignLine "F".toList (fmtList F) ++ assignLine "G".toList (fmtList G) ++ assignLine "version".toList version

/-- `dict(line.split("=") for line in lines)`: every line must have exactly one `=`. -/
def parseVars : List Text → Except Err (List (Text × Text))
  | [] => .ok []
  | l :: ls => match splitOn '=' l with
    | [a, b] => match parseVars ls with
      | .error e => .error e
      | .ok vs => .ok ((a, b) :: vs)
    | _ => .error .valueError

/-- Lookup in a dict built from pairs: the last pair wins; a missing name raises KeyError (`indexError` here). -/
def lookup (vs : List (Text × Text)) (name : Text) : Except Err Text :=
  match vs.reverse.find? (fun p => p.1 = name) with
  | some p => .ok p.2
  | none => .error .indexError

/-- The value of `literal_eval(variables[name])`. -/
def lookupVal (vs : List (Text × Text)) (name : Text) : Except Err Val :=
  match lookup vs name with
  | .error e => .error e
  | .ok s => literalEval s

/-- A loaded public key file. -/
structure PkFile where
  n : Int
  pk : Val
  version : Text
deriving Repr, DecidableEq

/-- The versions the loaders accept, sign_cli.py 74-82, 97-105. -/
def supported (version : Text) : Bool := version = ethfalconV || version = falconV || version = falconrecV || version = epervierV

/-- `load_pk`, sign_cli.py 65-82, up to the construction of the key object; `none`: it prints a message and returns `None`. -/
def loadPk (data : Text) : Except Err (Option PkFile) :=
  match parseVars ((splitLines data).drop 1) with
  | .error e => .error e
  | .ok vs => match lookup vs "n ".toList with
    | .error e => .error e
    | .ok sn => match parseInt sn with
      | .error e => .error e
      | .ok n => match lookupVal vs "pk ".toList with
        | .error e => .error e
        | .ok pk => match lookup vs "version ".toList with
          | .error e => .error e
          | .ok sv =>
            let version := lstrip sv
            if supported version then .ok (some ⟨n, pk, version⟩) else .ok none

/-- A loaded secret key file. -/
structure SkFile where
  n : Int
  f : Val
  g : Val
  F : Val
  G : Val
  version : Text
deriving Repr, DecidableEq

/-- `load_sk`, sign_cli.py 85-105, up to the construction of the key object. -/
def loadSk (data : Text) : Except Err (Option SkFile) :=
  match parseVars ((splitLines data).drop 1) with
  | .error e => .error e
  | .ok vs => match lookup vs "n ".toList with
    | .error e => .error e
    | .ok sn => match parseInt sn with
      | .error e => .error e
      | .ok n => match lookupVal vs "f ".toList with
        | .error e => .error e
        | .ok f => match lookupVal vs "g ".toList with
          | .error e => .error e
          | .ok g => match lookupVal vs "F ".toList with
            | .error e => .error e
            | .ok F => match lookupVal vs "G ".toList with
              | .error e => .error e
              | .ok G => match lookup vs "version ".toList with
                | .error e => .error e
                | .ok sv =>
                  let version := lstrip sv
                  if supported version then .ok (some ⟨n, f, g, F, G, version⟩) else .ok none

/-- `save_signature`, sign_cli.py 60-62, and `load_signature`, 108-111. -/
def saveSignature (sig : Bytes) : Text := hexOf sig
def loadSignature (t : Text) : Except Err Bytes := fromHex t

/-! ## Randomness of signatures -/

/-- `b''.join(x.to_bytes(2, 'big') for x in h)`, sign_cli.py 125: OverflowError outside `[0, 65536)`. -/
def joinBytes2 : List Int → Except Err Bytes
  | [] => .ok []
  | x :: l =>
    if x < 0 ∨ x ≥ 65536 then .error .valueError
    else match joinBytes2 l with
      | .error e => .error e
      | .ok r => .ok (x.toNat / 256 :: x.toNat % 256 :: r)

/-- The sponge from which `signature` reads, sign_cli.py 114-128: four updates, no `flip`. -/
def cliSponge (hBytes data : Bytes) : Keccak.Ctx :=
  let c := Keccak.Ctx.new
  let c := Keccak.absorb Keccak.F1600 Keccak.shakeRate c (List.replicate 32 0x01)
  let c := Keccak.absorb Keccak.F1600 Keccak.shakeRate c [0x00]
  let c := Keccak.absorb Keccak.F1600 Keccak.shakeRate c hBytes
  Keccak.absorb Keccak.F1600 Keccak.shakeRate c data

/-- `k` bytes of the sponge after `a` bytes were read. -/
def cliBytes (hBytes data : Bytes) (a k : Nat) : Bytes := ((Keccak.squeeze Keccak.F1600 Keccak.shakeRate (cliSponge hBytes data) (a + k)).2).drop a

/-- `randombytes(SALT_LEN)`, the first read of `sign`. -/
def cliSalt (hBytes data : Bytes) : Bytes := cliBytes hBytes data 0 40

/-- The seed of iteration `k` of the signing loop.  `SecretKey.sign` (falcon.py 453-467) reads 48 bytes once and takes 56 bytes per iteration from the SHAKE of them;
the recovery modes (falcon_epervier.py 103-107) read 48 bytes in every iteration. -/
def cliSeed (recover : Bool) (hBytes data : Bytes) (k : Nat) : Bytes :=
  if recover then cliBytes hBytes data (40 + 48 * k) 48
  else
    let seed := cliBytes hBytes data 40 48
    let shake := Keccak.pad Keccak.F1600 Keccak.shakeRate Keccak.shakeDs (Keccak.absorb Keccak.F1600 Keccak.shakeRate Keccak.Ctx.new seed)
    ((Keccak.squeeze Keccak.F1600 Keccak.shakeRate shake (56 * k + 56)).2).drop (56 * k)

/-- The sampler: what `ffsampling_fft` returns for a key, a point and the seed of its generator.  A parameter: floating point is not modelled. -/
abbrev Sampler := SecretKey → List Int → Bytes → List Int × List Int

/-- The hash function `signature` passes to `sign`, sign_cli.py 133; `true`: SHAKE, `false`: KeccakPRNG. -/
def signXof (version : Option Text) : Bool := version = some falconV || version = some epervierV

/-- The class of the secret key loaded from a file of this version: `none` for `SecretKey`, else the mode. -/
def keyMode (version : Text) : Option Epervier.Mode :=
  if version = falconrecV then some Epervier.recoveryMode else if version = epervierV then some Epervier.epervier else none

/-- `sk.sign(data, randombytes, xof)` for a key of class `cls`. -/
def signWith {S : Type} (P : PolyLib) (X : Xof S) (cls : Option Epervier.Mode) (Z : Sampler) (n bound bytelen : Nat) (sk : SecretKey) (hBytes data : Bytes) (fuel : Nat) :
    Option (Except Err Bytes) :=
  match cls with
  | none => sign X n bound bytelen (cliSalt hBytes data) data (fun c k => samplePreimage n sk c (Z sk c (cliSeed false hBytes data k))) fuel
  | some M => Epervier.pySign M P X n bound bytelen (cliSalt hBytes data) data (fun c k => samplePreimage n sk c (Z sk c (cliSeed true hBytes data k))) fuel

/-- `signature(sk, data, version)`, sign_cli.py 114-134; `cls` is the class of `sk`, `H` is Keccak-256. -/
def signature (P : PolyLib) (H : Bytes → Bytes) (cls : Option Epervier.Mode) (Z : Sampler) (n bound bytelen : Nat) (sk : SecretKey) (data : Bytes) (version : Option Text) (fuel : Nat) :
    Option (Except Err Bytes) :=
  match joinBytes2 sk.h with
  | .error e => some (.error e)
  | .ok hBytes =>
    if signXof version then signWith P shakeXof cls Z n bound bytelen sk hBytes data fuel
    else signWith P (keccakPrng H) cls Z n bound bytelen sk hBytes data fuel

/-! ## Commands -/

/-- `genkeys`, sign_cli.py 17-38, 356-364, for the secret key returned by key generation: the texts of the two key files.  An unknown version makes `generate_keys` return `None`,
which cannot be unpacked. -/
def genFiles (P : PolyLib) (n : Nat) (sk : SecretKey) (version : Text) : Except Err (Text × Text) :=
  if supported version then
    match (match keyMode version with
      | none => (.ok (Val.list sk.h) : Except Err Val)
      | some M => match Epervier.keyAddress M P sk.h with
        | .error e => .error e
        | .ok a => .ok (.int a)) with
    | .error e => .error e
    | .ok pk => .ok (savePk n pk version, saveSk n sk.f sk.g sk.F sk.G version)
  else .error .typeError

/-- The key object of a loaded file: `Params[n]` (KeyError for other `n`), the polynomials, and in the recovery modes the address (falcon_epervier.py 75-85). -/
def buildSk (P : PolyLib) (s : SkFile) : Except Err (Nat × Nat × Nat × SecretKey) :=
  match s.f, s.g, s.F, s.G with
  | .list f, .list g, .list F, .list G =>
    match params s.n.toNat with
    | none => .error .indexError
    | some (bound, bytelen) =>
      if s.n < 0 then .error .indexError
      else match mkSecretKey P s.n.toNat f g F G with
        | .error e => .error e
        | .ok sk => match keyMode s.version with
          | none => .ok (s.n.toNat, bound, bytelen, sk)
          | some M => match Epervier.keyAddress M P sk.h with
            | .error e => .error e
            | .ok _ => .ok (s.n.toNat, bound, bytelen, sk)
  | _, _, _, _ => .error .typeError

/-- `sign`, sign_cli.py 366-372, with `--data` non-empty: the text of the signature file. -/
def signCmd (P : PolyLib) (H : Bytes → Bytes) (Z : Sampler) (skText dataHex : Text) (fuel : Nat) : Option (Except Err Text) :=
  match loadSk skText with
  | .error e => some (.error e)
  | .ok none => some (.error .typeError)
  | .ok (some s) => match buildSk P s with
    | .error e => some (.error e)
    | .ok (n, bound, bytelen, sk) => match fromHex dataHex with
      | .error e => some (.error e)
      | .ok data => match signature P H (keyMode s.version) Z n bound bytelen sk data (some s.version) fuel with
        | none => none
        | some (.error e) => some (.error e)
        | some (.ok sig) => some (.ok (saveSignature sig))

/-- `pk.verify(data, sig, xof=XOF)` for the key object of a loaded file. -/
def verifyWith {S : Type} (P : PolyLib) (X : Xof S) (p : PkFile) (data sig : Bytes) (fuel : Nat) : Option (Except Err Bool) :=
  match params p.n.toNat with
  | none => some (.error .indexError)
  | some (bound, bytelen) =>
    if p.n < 0 then some (.error .indexError)
    else match keyMode p.version, p.pk with
      | none, .list pk => verify P X p.n.toNat bound bytelen pk data sig fuel
      | none, .int _ => some (.error .typeError)
      | some M, .int a => match Epervier.pyRecover M P X p.n.toNat bound bytelen data sig fuel with
        | none => none
        | some (.error e) => some (.error e)
        | some (.ok none) => some (.ok (decide (a = 0)))
        | some (.ok (some b)) => some (.ok (decide ((b : Int) = a)))
      | some M, .list _ => match Epervier.pyRecover M P X p.n.toNat bound bytelen data sig fuel with
        | none => none
        | some (.error e) => some (.error e)
        | some (.ok _) => some (.ok false)

/-- `verify_signature`, sign_cli.py 168-175: for other versions than three `XOF` is unbound (`runtimeError` stands for UnboundLocalError). -/
def verifySignature (P : PolyLib) (H : Bytes → Bytes) (p : PkFile) (data sig : Bytes) (version : Text) (fuel : Nat) : Option (Except Err Bool) :=
  if version = falconV ∨ version = epervierV then verifyWith P shakeXof p data sig fuel
  else if version = ethfalconV then verifyWith P (keccakPrng H) p data sig fuel
  else some (.error .runtimeError)

/-- `verify`, sign_cli.py 392-401: `true` for "Signature is valid." -/
def verifyCmd (P : PolyLib) (H : Bytes → Bytes) (pkText dataHex sigText : Text) (fuel : Nat) : Option (Except Err Bool) :=
  match loadPk pkText with
  | .error e => some (.error e)
  | .ok none => some (.error .typeError)
  | .ok (some p) => match loadSignature sigText with
    | .error e => some (.error e)
    | .ok sig => match fromHex dataHex with
      | .error e => some (.error e)
      | .ok data => verifySignature P H p data sig p.version fuel

/-! ## Transactions -/

/-- `encode(["uint256", "uint160", "bytes", "uint256"], [nonce, to, data, value])` of eth_abi, sign_cli.py 139-143: values out of range raise; the head has four words
(the third is the offset 128 of the data), the tail is the length and the data padded with zeros to whole words. -/
def txEncode (nonce to : Int) (data : Bytes) (value : Int) : Except Err Bytes :=
  if nonce < 0 ∨ nonce ≥ 2 ^ 256 ∨ to < 0 ∨ to ≥ 2 ^ 160 ∨ value < 0 ∨ value ≥ 2 ^ 256 then .error .valueError
  else .ok (Contract.wordBytes nonce.toNat ++ Contract.wordBytes to.toNat ++ Contract.wordBytes 128 ++ Contract.wordBytes value.toNat ++
    (Contract.wordBytes data.length ++ (data ++ List.replicate ((32 - data.length % 32) % 32) 0)))

/-- `transaction_hash`, sign_cli.py 137-146. -/
def txHash (nonce to : Int) (data : Bytes) (value : Int) : Except Err Bytes :=
  match txEncode nonce to data value with
  | .error e => .error e
  | .ok packed =>
    let k := Keccak.absorb Keccak.F1600 (200 - 512 / 8) Keccak.Ctx.new packed
    let k := Keccak.pad Keccak.F1600 (200 - 512 / 8) 0x01 k
    .ok (Keccak.squeeze Keccak.F1600 (200 - 512 / 8) k 32).2

/-- `sign_tx`, sign_cli.py 374-390, for parsed numbers; `version` is the option `--version`.  `verify_signature` is called with three of its four arguments: TypeError. -/
def signTxCmd (P : PolyLib) (H : Bytes → Bytes) (Z : Sampler) (skText : Text) (nonce to : Int) (data : Bytes) (value : Int) (version : Option Text) (fuel : Nat) :
    Option (Except Err Text) :=
  match txHash nonce to data value with
  | .error e => some (.error e)
  | .ok h => match loadSk skText with
    | .error e => some (.error e)
    | .ok none => some (.error .typeError)
    | .ok (some s) => match buildSk P s with
      | .error e => some (.error e)
      | .ok (n, bound, bytelen, sk) => match params 512 with
        | none => some (.error .indexError)
        | some _ => match signature P H (keyMode s.version) Z n bound bytelen sk h version fuel with
          | none => none
          | some (.error e) => some (.error e)
          | some (.ok _) => some (.error .typeError)

/-- The template of sign_cli.py 272. -/
def recoverTemplate : Text :=
  "cast send --private-key {} {} \"recover(bytes,bytes,uint256[],uint256[], uint256)\" {} {} \"{}\" \"{}\" \"{}\" --rpc-url {}".toList

/-- `recover_on_chain_with_transaction`, sign_cli.py 250-289, up to the command that is run: the packed `s1` is computed but not passed. -/
def recoverSend (P : PolyLib) (data sig : Bytes) (contract rpc privateKey version : Text) : Except Err Text :=
  if version ≠ epervierV then .error .assertError
  else match Epervier.cliRecoverArgs P sig with
    | .error e => .error e
    | .ok (salt, _, s2, hint) =>
      pyFormat recoverTemplate [privateKey, contract, "0x".toList ++ hexOf data, "0x".toList ++ hexOf salt, fmtList (s2.map fun x : Nat => (x : Int)), fmtNat hint, rpc]

/-- The template of sign_cli.py 308. -/
def verifyTemplate : Text := "cast send --private-key {} {} \"verify(bytes,bytes,uint256[],uint256[])\" {} {} \"{}\" \"{}\" --rpc-url {}".toList

/-- `verify_signature_on_chain_with_transaction`, sign_cli.py 292-325, up to the command that is run; `n` is the dimension of the key (its `sig_bytelen` enters). -/
def verifySend (P : PolyLib) (pk : List Int) (bytelen : Nat) (data sig : Bytes) (contract rpc privateKey version : Text) : Except Err Text :=
  if version ≠ falconV ∧ version ≠ ethfalconV then .error .assertError
  else match Encoding.decompress (sig.drop (1 + 40)) (bytelen - 1 - 40) 512 with
    | .error e => .error e
    | .ok none => .error .typeError
    | .ok (some s2) => match Packing.falconCompact (s2.map fun x => (x % 12289).toNat) with
      | .error e => .error e
      | .ok c2 => match Packing.falconCompact ((P.ntt pk).map Int.toNat) with
        | .error e => .error e
        | .ok cpk =>
          pyFormat verifyTemplate [privateKey, contract, "0x".toList ++ hexOf data, "0x".toList ++ hexOf ((sig.drop 1).take 40),
            fmtList (c2.map fun x : Nat => (x : Int)), fmtList (cpk.map fun x : Nat => (x : Int)), rpc]

end Verif.Cli
