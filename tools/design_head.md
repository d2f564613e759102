# Formal model of siemens/cmp-test-suite (pinned commit) in Lean 4

Sections 3 to 5 are generated by `tools/gen_design.py` from the sources, `properties.jsonl` and `MANIFEST.json`.

## 1. Scope and method

The code base is a Robot Framework test suite for CMP, with a mock CA and pure-Python post-quantum algorithms.
Three parts have semantics a user relies on beyond single runs:

* the **mock CA** (`mock_ca/`): the dispatcher, certificate database, transaction IDs, confirmation state, KEM shared
  secrets, indices of stateful signatures, challenges, revocation, OCSP and CRLs, nested messages, serial numbers;
* the **algorithms** (`pq_logic/`): ML-KEM, ML-DSA, SLH-DSA, FrodoKEM, the hybrid KEMs and composite signatures, the
  key classes, loading and saving of keys, stateful hash-based signatures;
* the **checkers and helpers** (`resources/`) which decide whether a tested CA passes.

Each Python function of the modelled fragment is mirrored by a total, computable Lean function with the same order
of branches. Exceptions are values (`Except PyErr`), mutation is state passing (`Res σ α`: outcome and state after,
so that effects before an exception stay visible). A rejection loop that need not end has a fuel argument. Every
definition carries a comment with the file and the lines it models and says where it simplifies.

Layout (`lean/Verif/`): `CA/` is the mock CA, `Check/` the checkers and certificate chains, `PQ/` the algorithms,
`Hybrid/` the hybrid certificates (Catalyst, Chameleon, related certificates, Sun) and their issuing, `Prot/` the
protection of messages, `Env/` enveloped and signed data, `Ra/` the functions with which the CA answers requests.
`X.lean` is the model, `XProps.lean` has the property theorems, with the specification they are stated in at the top
of the file or just before the theorem, and examples of non-trivial instances beside them; `XRefuted.lean` has
disagreements. The other files hold lemmas.

Where a property is *false of the code*, the negation is proved with a witness, or for all inputs of a described
kind (`Cxx_..._refuted`), and what is true is kept (`..._partial`). Section 4 lists all of them.

## 2. Trusted base

* The Lean 4 kernel; the axioms `propext`, `Classical.choice` and `Quot.sound` at most (section 5).
* No axioms of our own, no `sorry` or `admit`, no `native_decide` or `bv_decide`. Finite tables are checked with
  `decide` or `decide +kernel`, which the kernel evaluates.
* Mathlib is used in few files only: `PQ/NttTheory.lean` and `PQ/NttList.lean` (rings, finite sums, `ZMod`),
  `PQ/Rsa.lean` (Fermat's little theorem), `Env/Mqv.lean` and `Env/MqvProps.lean` (groups, `ZMod`), and two files for
  lemmas on lists.
* The hand translation from Python to Lean, described per definition.
* *Parameters* (arbitrary functions or values; a law assumed of one is a hypothesis of the theorem): hash functions,
  XOFs, PRFs, MACs and block ciphers; elliptic curve operations, RSA and AES of the package `cryptography`; DER encoding
  and parsing (pyasn1); the verdict of OpenSSL on a chain; the clock; the random generator; the packages `oqs` and
  `pyhsslms`. In `CA/` the verdicts of MAC and signature verification are parameters too (modelled in `Prot/`), in `Ra/`
  the building of a certificate from a template.
* Not modelled: the HTTP layer, pyasn1 itself (except the encodings of the private-key CHOICE), the Robot Framework
  keywords and test cases, logging, the command line tools, pkilint, concurrency (the mock CA handles one message at a
  time), timing and other side channels, paths taken only if the optional package `oqs` is installed. A function that
  section 3 does not cite is not modelled.
