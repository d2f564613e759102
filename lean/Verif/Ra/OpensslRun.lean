import Verif.CA.Msg

/-!
# The checks that are left to the `openssl` program (resources/certutils.py)

`verify_cert_chain_openssl` (978-1049) with its helpers (707-975), `verify_openssl_crl` (1264-1307) and
`validate_ocsp_status_openssl` (2210-2337).

The file system is part of the model: the functions write the certificates into files and name these files on the command
line. `C` stands for a certificate, `D` for the bytes of a downloaded or stored CRL. Parameters (`Env`): what the program
answers to a command line, given the file system; the CRL addresses of a certificate; what a download yields; the two CRL
parsers.

Simplifications: paths are compared as strings, the directory `data` exists, writing succeeds, and the temporary files into
which downloads are stored are represented by their contents, in order. Logging is left out.
-/

namespace Verif.Ra.Ssl

open Verif.CA (PyErr)

/-- What a file holds. -/
inductive Content (C D : Type)
  /-- certificates in PEM form, one after the other -/
  | certs (l : List C)
  /-- CRLs in PEM form, one after the other -/
  | crls (l : List D)
  /-- the DER form of one CRL -/
  | derCrl (d : D)
deriving Repr

/-- The files and the directories. -/
structure Fs (C D : Type) where
  file : String → Option (Content C D)
  dir : String → Bool

variable {C D : Type}

/-- `open(path, "w")` and a write. -/
def Fs.write (fs : Fs C D) (p : String) (c : Content C D) : Fs C D :=
  { fs with file := fun q => if q = p then some c else fs.file q }

/-- `os.mkdir` and `os.makedirs(…, exist_ok=True)`. -/
def Fs.mkdir (fs : Fs C D) (d : String) : Fs C D :=
  { fs with dir := fun q => if q = d then true else fs.dir q }

/-- A path inside of a directory. -/
def under (d p : String) : Bool := (d ++ "/").toList.isPrefixOf p.toList

/-- `shutil.rmtree`. -/
def Fs.rmtree (fs : Fs C D) (d : String) : Fs C D :=
  { file := fun q => if under d q then none else fs.file q
    dir := fun q => if q = d ∨ under d q then false else fs.dir q }

/-- How `subprocess.run` ends: with an exit status and the two outputs, by the timeout, or by another exception. -/
inductive Run
  | exited (status : Nat) (out err : String)
  | timeout
  | failed
deriving DecidableEq, Repr

structure Env (C D : Type) where
  /-- the program: timeout in seconds (`none`: without), file system, command line -/
  openssl : Option Nat → Fs C D → List String → Run
  /-- `_extract_crl_urls_from_cert_pyasn1` -/
  crlUrls : C → Except PyErr (List String)
  /-- `requests.get(url).content` unless it raises or `raise_for_status` does -/
  fetch : String → Option D
  /-- `x509.load_der_x509_crl(data).public_bytes(PEM)`; `none` for a `ValueError` -/
  derToPem : D → Option D
  /-- `x509.load_pem_x509_crl(data)` does not raise -/
  isPem : D → Bool

/-- The directory of `_verify_certificate_chain` (802) and `verify_openssl_crl` (1275). -/
def certDir : String := "data/tmp_cert_checks"
/-- The directory of the CRLs (909, 936, 963). -/
def crlDir : String := "data/tmp_crl"
/-- The directory that `verify_cert_chain_openssl` makes (1024). -/
def otherDir : String := "./data/tmp_cert_check"

def eePath : String := "data/tmp_cert_checks/ee.pem"
def interPath : String := "data/tmp_cert_checks/intermediates.pem"
def anchorPath : String := "data/tmp_cert_checks/trustanchor.pem"
def combinedPath : String := "data/tmp_crl/combined_crls.crl"

/-- `_verify_less_then_three_certificates` (721-763): the files and the end of the command line. -/
def lessThanThree (fs : Fs C D) (chain : List C) : Except PyErr (Fs C D × List String) :=
  match chain with
  | [a] => .ok ((fs.write anchorPath (.certs [a])).write eePath (.certs [a]), ["-CAfile", anchorPath, eePath])
  | [a, b] => .ok ((fs.write anchorPath (.certs [b])).write eePath (.certs [a]), ["-CAfile", anchorPath, eePath])
  | [a, b, c] =>
    .ok (((fs.write anchorPath (.certs [c])).write interPath (.certs [b])).write eePath (.certs [a]),
      ["-CAfile", anchorPath, "-untrusted", interPath, eePath])
  | _ => .error .valueError

/-- `_verify_more_certs_than_three` (766-788), for a chain with the first certificate `a`. -/
def moreThanThree (fs : Fs C D) (a : C) (rest : List C) : Fs C D × List String :=
  (((fs.write anchorPath (.certs [rest.getLast?.getD a])).write interPath (.certs rest.dropLast)).write eePath
      (.certs [a]),
    ["-CAfile", anchorPath, "-untrusted", interPath, eePath])

/-- The exceptions of `subprocess.run(…, check=True)` are turned into one (814-828). -/
def judged : Run → Except PyErr Unit
  | .exited 0 _ _ => .ok ()
  | _ => .error .signerNotTrusted

/-- The `finally` block (829-833). -/
def cleanup (fs : Fs C D) : Fs C D := ((if fs.dir crlDir then fs.rmtree crlDir else fs)).rmtree certDir

/-- `_verify_certificate_chain` (791-835): the outcome and the file system afterwards. -/
def verifyChainCmd (env : Env C D) (fs : Fs C D) (command : List String) (chain : List C) (timeout : Nat) :
    Except PyErr Unit × Fs C D :=
  let fs := fs.mkdir certDir
  match chain with
  | [] => (.error .valueError, fs)
  | a :: rest =>
    if chain.length ≤ 3 then
      match lessThanThree fs chain with
      | .error e => (.error e, fs)
      | .ok (fs, cmds) => (judged (env.openssl (some timeout) fs (command ++ cmds)), cleanup fs)
    else
      (judged (env.openssl (some timeout) (moreThanThree fs a rest).1 (command ++ (moreThanThree fs a rest).2)),
        cleanup (moreThanThree fs a rest).1)

/-- The loop of `_get_crls_from_certs` (857-867); `last` tells whether the certificate is the last of the chain. -/
def collectUrls (env : Env C D) (all : Bool) : List C → Except PyErr (List String)
  | [] => .ok []
  | c :: rest =>
    match env.crlUrls c with
    | .error e => .error e
    | .ok urls =>
      if urls.isEmpty && all && !rest.isEmpty then .error .valueError
      else
        match collectUrls env all rest with
        | .error e => .error e
        | .ok more => .ok (urls ++ more)

/-- `_get_crls_from_certs` (838-871). -/
def crlsFromCerts (env : Env C D) (chain : List C) (crlPath : Option String) (all : Bool) :
    Except PyErr (List String) :=
  match crlPath with
  | some p => .ok [p]
  | none =>
    let go (certs : List C) : Except PyErr (List String) :=
      match collectUrls env all certs with
      | .error e => .error e
      | .ok [] => .error .valueError
      | .ok urls => .ok urls
    if all then go chain
    else
      match chain with
      | [] => .error .indexError
      | c :: _ => go [c]

/-- `ensure_is_pem_crl` (874-891). -/
def ensurePem (env : Env C D) (d : D) : Except PyErr D :=
  match env.derToPem d with
  | some p => .ok p
  | none => if env.isPem d then .ok d else .error .valueError

/-- One round of the loop of `_fetch_crls` (902-919): whatever goes wrong is logged and passed over. -/
def fetchOne (env : Env C D) (url : String) : Option D :=
  match env.fetch url with
  | none => none
  | some d => (ensurePem env d).toOption

/-- `_fetch_crls` (894-921): what the files that it returns hold. -/
def fetchCrls (env : Env C D) (urls : List String) : List D := urls.filterMap (fetchOne env)

/-- `uri.startswith("http://") or uri.startswith("https://")`. -/
def isHttp (u : String) : Bool := "http://".toList.isPrefixOf u.toList || "https://".toList.isPrefixOf u.toList

/-- The loop over `set(crl_urls)` (967-970): for every HTTP address *all* addresses are fetched, so that the order of the
set does not matter. -/
def downloads (env : Env C D) (urls : List String) : List D :=
  ((urls.eraseDups.filter isHttp).map fun _ => fetchCrls env urls).flatten

/-- The loop of `_concatenate_crls` (940-943). -/
def concatCrls (env : Env C D) : List D → Except PyErr (List D)
  | [] => .ok []
  | d :: rest =>
    match ensurePem env d with
    | .error e => .error e
    | .ok p =>
      match concatCrls env rest with
      | .error e => .error e
      | .ok more => .ok (p :: more)

/-- `_get_crl_filepath_for_verification` (946-975). -/
def prepareCrls (env : Env C D) (fs : Fs C D) (chain : List C) (crlPath : Option String) (all : Bool) :
    Except PyErr Unit × Fs C D :=
  match crlPath with
  | some p => if (fs.file p).isSome then (.ok (), fs) else (.error .valueError, fs)
  | none =>
    let fs := fs.mkdir crlDir
    match crlsFromCerts env chain none all with
    | .error e => (.error e, fs)
    | .ok urls =>
      match downloads env urls with
      | [] => (.error .valueError, fs)
      | d :: rest =>
        match concatCrls env (d :: rest) with
        | .error e => (.error e, fs.write combinedPath (.crls []))
        | .ok l => (.ok (), fs.write combinedPath (.crls l))

structure Opts where
  crlCheck : Bool := false
  verbose : Bool := true
  /-- `int(timeout)`; `none` if that raises -/
  timeout : Option Nat := some 60
  crlPath : Option String := none
  crlCheckAll : Bool := false
deriving DecidableEq, Repr

/-- The options of the command line (1031-1047). -/
def sslOptions (o : Opts) : List String :=
  ["openssl", "verify"] ++
    (if o.crlCheck || o.crlCheckAll then ["-CRLfile", o.crlPath.getD combinedPath] else []) ++
    (if o.crlCheckAll then ["-crl_check_all"] else []) ++
    (if o.crlCheck then ["-crl_check"] else []) ++
    (if !o.crlCheck && !o.crlCheckAll then ["-no-CApath"] else []) ++
    (if o.verbose then ["-verbose"] else [])

/-- The rest of `verify_cert_chain_openssl` once the CRLs are there (1038-1049). -/
def runVerify (env : Env C D) (fs : Fs C D) (chain : List C) (o : Opts) : Except PyErr Unit × Fs C D :=
  match o.timeout with
  | none => (.error .valueError, fs)
  | some t => verifyChainCmd env fs (sslOptions o) chain t

/-- `verify_cert_chain_openssl` (978-1049). `crl_path=""` is refused before `crl_path or …` is reached. -/
def verifyChain (env : Env C D) (fs : Fs C D) (chain : List C) (o : Opts) : Except PyErr Unit × Fs C D :=
  let fs := fs.mkdir otherDir
  if o.crlCheck || o.crlCheckAll then
    match prepareCrls env fs chain o.crlPath o.crlCheckAll with
    | (.error e, fs) => (.error e, fs)
    | (.ok (), fs) => runVerify env fs chain o
  else runVerify env fs chain o

/-! ## `verify_openssl_crl` (1264-1307) -/

/-- The first element of the list: a CRL or something else. -/
inductive First (C D : Type)
  | crl (d : D)
  | other (c : C)

def crlDerPath : String := "data/tmp_cert_checks/crl.der"
def crlAnchorPath : String := "data/tmp_cert_checks/anchor.pem"

/-- Only the exit status counts (1295-1307); with `check=True` the test of `returncode` is never reached with another value. -/
def crlJudged : Run → Except PyErr Unit
  | .exited 0 _ _ => .ok ()
  | _ => .error .valueError

/-- `verify_openssl_crl`, for the list `first :: certs`, `none` for the empty list. -/
def verifyCrl (env : Env C D) (fs : Fs C D) (first : Option (First C D)) (certs : List C) (timeout : Nat) :
    Except PyErr Unit × Fs C D :=
  let fs := fs.mkdir certDir
  match first with
  | none => (.error .indexError, fs)
  | some (.other _) => (.error .valueError, fs)
  | some (.crl d) =>
    let fs := (fs.write crlDerPath (.derCrl d)).write crlAnchorPath (.certs certs.reverse)
    (crlJudged (env.openssl (some timeout) fs ["openssl", "crl", "-in", crlDerPath, "-CAfile", crlAnchorPath, "-verify"]),
      fs.rmtree certDir)

/-! ## `validate_ocsp_status_openssl` (2210-2337) -/

/-- A certificate argument: a path or an object. -/
inductive CertArg (C : Type)
  | path (p : String)
  | cert (c : C)

structure OcspEnv (C D : Type) where
  base : Env C D
  /-- `parse_certificate(load_and_decode_pem_file(path))` -/
  load : Fs C D → String → Except PyErr C
  /-- `get_ocsp_url_from_cert` -/
  ocspUrls : C → Except PyErr (List String)
  /-- the name of the n-th temporary file -/
  tmp : Nat → String

/-- `"needle" in text`. -/
def contains (needle text : List Char) : Bool :=
  needle.isPrefixOf text || match text with
    | [] => false
    | _ :: rest => contains needle rest

/-- The status that is read from the output (2311-2316). -/
def ocspStatus (out : String) : String :=
  if contains "Cert Status: revoked".toList out.toList then "revoked"
  else if contains "Cert Status: good".toList out.toList then "good"
  else "unknown"

/-- The decision (2324-2337). -/
def ocspDecide (expected : String) (unknownOk : Bool) (status : String) : Except PyErr Unit :=
  if expected = status then .ok ()
  else if status = "unknown" && unknownOk then .ok ()
  else if status = "revoked" then .error .certRevoked
  else .error .valueError

/-- The path of a certificate argument and the temporary file written for it (2259-2272, `_write_temp_cert` 2210-2221). -/
def certPath (e : OcspEnv C D) (fs : Fs C D) (n : Nat) : CertArg C → String × Fs C D × List String
  | .path p => (p, fs, [])
  | .cert c => (e.tmp n, fs.write (e.tmp n) (.certs [c]), [e.tmp n])

/-- `os.remove`. -/
def Fs.remove (fs : Fs C D) (p : String) : Fs C D := { fs with file := fun q => if q = p then none else fs.file q }

/-- The URL to ask (2274-2280): the argument, unless empty, else the first of the certificate. -/
def ocspUrl (e : OcspEnv C D) (cert : C) (url : Option String) : Except PyErr String :=
  match url with
  | some u => if u ≠ "" then .ok u else
    match e.ocspUrls cert with
    | .error x => .error x
    | .ok [] => .error .valueError
    | .ok (v :: _) => .ok v
  | none =>
    match e.ocspUrls cert with
    | .error x => .error x
    | .ok [] => .error .valueError
    | .ok (v :: _) => .ok v

/-- The command line (2282-2297). -/
def ocspCommand (issuer cert url : String) (nonce : Bool) : List String :=
  ["openssl", "ocsp", "-issuer", issuer, "-cert", cert, "-url", url, "-CAfile", issuer, "-resp_text"] ++
    (if nonce then ["-nonce"] else [])

/-- The rest from the run of the program on (2299-2337). -/
def ocspFinish (run : Run) (fs : Fs C D) (temps : List String) (expected : String) (unknownOk : Bool) :
    Except PyErr Unit × Fs C D :=
  match run with
  | .exited 0 out _ => (ocspDecide expected unknownOk (ocspStatus out), temps.foldl Fs.remove fs)
  | .exited _ _ _ => (.error .valueError, fs)
  | _ => (.error .exception, fs)

/-- The certificate object of the first argument (2259-2264). -/
def certObj (e : OcspEnv C D) (fs : Fs C D) : CertArg C → Except PyErr C
  | .path p => e.load fs p
  | .cert c => .ok c

/-- `validate_ocsp_status_openssl`. There is no timeout. -/
def ocspOpenssl (e : OcspEnv C D) (fs : Fs C D) (cert caCert : CertArg C) (url : Option String) (expected : String)
    (unknownOk nonce : Bool) : Except PyErr Unit × Fs C D :=
  match certObj e fs cert with
  | .error x => (.error x, fs)
  | .ok c =>
    let r1 := certPath e fs 0 cert
    let r2 := certPath e r1.2.1 1 caCert
    match ocspUrl e c url with
    | .error x => (.error x, r2.2.1)
    | .ok u =>
      ocspFinish (e.base.openssl none r2.2.1 (ocspCommand r2.1 r1.1 u nonce)) r2.2.1 (r1.2.2 ++ r2.2.2) expected unknownOk

end Verif.Ra.Ssl
