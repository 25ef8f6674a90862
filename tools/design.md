# Formal model of python-kasa in Lean 4

This file is generated by `tools/design.py` from `tools/design.md`, `properties.jsonl`, `tools/notes.json`, the comments of the
model and the built theorems.

## Layout

* `lean/Verif/Py/` – the few Python notions the model needs: insertion-ordered dict, JSON value, numbers, exceptions as values,
  coroutines, a heap, big-endian integers, abstract ciphers and hashes.
* `lean/Verif/Model/` – the model, one file per source file or group of functions. Every definition cites the lines of `/repo` it models,
  and says where it simplifies.
* `lean/Verif/Spec/` – small independent specifications, written without the model.
* `lean/Verif/Lemmas/` – helper lemmas.
* `lean/Verif/Props/` – the property theorems only, each with an `example` that meets its hypotheses.
* `properties.jsonl` – the English properties; `MANIFEST.json` – which theorem covers which; `seeded/LOG.jsonl` – wrong-program experiments.
* `tools/` – regenerate `Verif.lean`, `MANIFEST.json` and this file, check citations, run wrong programs.

## How the model is built

* Functions of the code are total functions. Exceptions are values of `Exc`; code that changes an object and may raise is a function
  from the state to a result and a new state (`PyM`), so that the state after an exception is modelled too.
* The device, the network, the clock, random numbers and the cookie jar are an environment: arbitrary functions with an arbitrary
  state. Theorems quantify over every environment. What happened is recorded in a log of events that no function of the model reads.
* Tasks sharing an object are coroutines that suspend at each `await`; theorems quantify over every schedule and every cancellation.
* Aliasing matters in a few places (redaction, the dicts shared by a strip and its sockets). These are modelled on a heap.
* Properties that are false of the code have a theorem proving the counterexample, and a theorem with suffix `_partial` proving what is
  true. The note in the table names both.

## Plan and result per property

"Modelled and proved" says what is modelled and how it is proved; "remarks" says what is missing or false.

@PROPERTIES@

## Parts of the code that are modelled

Lines of `/repo/kasa` cited by the model, with the model files. Log messages, type annotations and doc strings within them are omitted.

@MODELLED@

## Parts of the code that are not modelled

Files without any modelled line (lines in parentheses). Within the files of the previous table every line outside of the ranges is not
modelled either: mostly constructors, plain properties, registration of features and log messages.

@UNMODELLED@

## Trusted base

* Lean 4.33.0: its kernel, and the elaborator for what the statements mean. No axiom is added; no `sorry`, `native_decide`, `bv_decide`,
  `implemented_by` or `partial` is used. No module of Mathlib is imported.
* The model being faithful to the cited Python lines. It was written by reading; the code was not run. The simplifications are stated in
  the comments of the model.
* Taken as parameters, with no assumption beyond those stated in the theorems: the AES block permutation, SHA-1, SHA-256, MD5, CRC32, RSA,
  base64 where it is not spelled out, JSON text, `str.lower`, the offsets of time zones, the network, the device, the clock.
* Floats are exact rationals, integers, or rationals with NaN (`Py/Num.lean`); which one is said at each use. Rounding errors and
  infinities are not modelled.
* Axioms each theorem of the manifest depends on, as `#print axioms` lists them (names without the prefix `Kasa.`):

@AXIOMS@
