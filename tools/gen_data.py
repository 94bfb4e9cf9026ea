#!/usr/bin/env python3
"""Transcribe the Unicode data files of /repo/lib into Lean modules.

Usage: gen_data.py REPO_LIB OUT_DIR

For each of idna-tables-properties.csv, IdnaMappingTable.txt and
DerivedNormalizationProps.txt three modules are written:
  X.lean           the rows stated by the lines, in file order
  XText.lean       the bytes of the lines
  XTextCheck.lean  the theorems that the modelled generators read the bytes as the rows
"""
import sys

lib, out = sys.argv[1], sys.argv[2]
CHUNK = 250
NOTE = "Written by tools/gen_data.py; do not edit."


def rng(s, sep):
    p = s.strip().split(sep)
    return int(p[0], 16), int(p[-1], 16)


def chunks_of(f, var, typ, chunks):
    for i, c in enumerate(chunks):
        if c:
            f.write(f"def {var}{i} : List {typ} := [\n  " + ",\n  ".join(c) + "]\n\n")
        else:
            f.write(f"def {var}{i} : List {typ} := []\n\n")
    f.write(f"/-- All the lines, in chunks. -/\ndef {var}Chunks : List (List {typ}) := [\n  ")
    names = [f"{var}{i}" for i in range(len(chunks))]
    f.write(",\n  ".join(", ".join(names[i:i + 8]) for i in range(0, len(names), 8)) + "]\n\n")


def emit(name, var, typ, fname, what, parse, check, header):
    data = open(f"{lib}/{fname}", "rb").read()
    assert data.endswith(b"\n") and b"\0" not in data
    lines = data[:-1].split(b"\n")
    assert max(map(len, lines)) <= 1022
    head = lines.pop(0) if header else None
    num = lambda l: "0x%X" % int.from_bytes(l, "little")
    parts = [lines[i:i + CHUNK] for i in range(0, len(lines), CHUNK)]
    rows = [[r for r in (parse(l.decode("utf-8")) for l in p) if r is not None] for p in parts]

    with open(f"{out}/{name}.lean", "w") as f:
        f.write(f"import Verif.Model.Gen\n\n/-\n{what} of lib/{fname}.\n{NOTE}\n-/\n\nnamespace Idn2.Shipped\n\n")
        chunks_of(f, var, typ, rows)
        f.write(f"/-- All the lines. -/\ndef {var} : List {typ} := {var}Chunks.flatten\n\nend Idn2.Shipped\n")

    with open(f"{out}/{name}Text.lean", "w") as f:
        f.write(f"/-\nThe text of lib/{fname}.\nEach number holds the bytes of a line without its line "
                f"feed, the first byte being the least\nsignificant.  {NOTE}\n-/\n\nnamespace Idn2.Shipped\n\n")
        if header:
            f.write(f"def {var}TextHead : Nat := {num(head)}\n\n")
        chunks_of(f, f"{var}Text", "Nat", [[num(l) for l in p] for p in parts])
        h = f"{var}TextHead :: " if header else ""
        f.write(f"/-- All the lines. -/\ndef {var}Text : List Nat := {h}{var}TextChunks.flatten\n\nend Idn2.Shipped\n")

    with open(f"{out}/{name}TextCheck.lean", "w") as f:
        f.write(f"import Verif.Proof.GenTextEval\nimport Verif.Data.{name}\nimport Verif.Data.{name}Text\n\n"
                f"/-\nThe lines in Verif/Data/{name}.lean are those of the text in Verif/Data/{name}Text.lean.  "
                f"The check\nruns over the whole text.\n{NOTE}\n-/\n\nnamespace Idn2.Shipped\n\n")
        for i in range(len(parts)):
            f.write(f"theorem {var}_text{i} : {check} {var}Text{i} {var}{i} = true := by decide +kernel\n")
        f.write(f"\ntheorem {var}_text_pieces : Pieces {check} {var}TextChunks {var}Chunks :=\n")
        for i in range(len(parts)):
            f.write(f"  .cons {var}_text{i} <|\n")
        f.write("  .nil\n\n")
        f.write(f"theorem {var}_text_ok : {var}TextCheck {var}Text {var} = true := ")
        if header:
            f.write(f"by\n  have h := {var}_pieces {var}_text_pieces\n  unfold {var}Text {var} {var}TextCheck\n"
                    "  rw [Bool.and_eq_true]\n  exact ⟨by decide +kernel, h⟩\n")
        else:
            f.write(f"{var}_pieces {var}_text_pieces\n")
        f.write("\nend Idn2.Shipped\n")


def csv(line):
    a, prop = line.rstrip("\r").split(",")[:2]
    lo, hi = rng(a, "-")
    return f"⟨0x{lo:X}, 0x{hi:X}, .{prop.lower()}⟩"


def fields(line):
    line = line.strip()
    if not line or line[0] == "#":
        return None
    return [x.strip() for x in line.split("#")[0].split(";")]


ST = {"valid": "valid", "mapped": "mapped", "ignored": "ignored", "deviation": "deviation",
      "disallowed": "disallowed", "disallowed_STD3_mapped": "std3Mapped",
      "disallowed_STD3_valid": "std3Valid"}


def mapping(line):
    f = fields(line)
    if f is None:
        return None
    lo, hi = rng(f[0], "..")
    m = ", ".join("0x%X" % int(x, 16) for x in (f[2].split() if len(f) > 2 else []))
    return f"⟨0x{lo:X}, 0x{hi:X}, .{ST[f[1]]}, [{m}]⟩"


def nfcqc(line):
    f = fields(line)
    if f is None or len(f) < 3 or f[1] != "NFC_QC":
        return None
    lo, hi = rng(f[0], "..")
    return f"⟨0x{lo:X}, 0x{hi:X}, {dict(N=1, M=2)[f[2][0]]}⟩"


emit("Csv", "csv", "CsvRow", "idna-tables-properties.csv", "The lines", csv, "csvLinesCheck", True)
emit("Map", "map", "MapRow", "IdnaMappingTable.txt", "The lines", mapping, "mapTextCheck", False)
emit("Qc", "qc", "QcRow", "DerivedNormalizationProps.txt", "The NFC_QC lines", nfcqc, "qcTextCheck", False)
