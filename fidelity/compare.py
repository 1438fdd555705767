"""Cross-check the Lean model against oracle.py on random inputs.

usage: python3 compare.py [cases] [seed]      (run after `lake build` in ../lean)
"""
import os, random, re, subprocess, sys, tempfile
import oracle as o

HERE = os.path.dirname(os.path.abspath(__file__))
LEAN = os.path.join(HERE, "..", "lean")
RUNNER = r'''
import Verif.Model.Ops
import Verif.Model.Parse
import Verif.Model.Format
import Verif.Model.Convert
open Fxd

def showD (d : FixedDecimal) : String :=
  s!"{d.intg.toInt} {d.frac} {",".intercalate (d.lsu.map toString)}"
def showE : Error → String
  | .conversionSyntax => "conversionSyntax" | .divisionByZero => "divisionByZero"
  | .overflow => "overflow" | .exceedsConversionTargetRange => "exceedsConversionTargetRange"
def showP : Panic → String
  | .overflow => "overflow" | .index => "index" | .assert => "assert" | .divZero => "divZero"
  | .unreachable => "unreachable" | .operator e => "operator " ++ showE e | .diverges => "diverges"
def showO {σ α : Type} (s : σ → String) (f : α → String) : Out σ α → String
  | .ok a => "ok " ++ f a | .err e st => "err " ++ showE e ++ " " ++ s st | .panic p => "panic " ++ showP p
def ints (s : String) : List Int := ((s.splitOn ",").filter (· ≠ "")).map String.toInt!
def dec (s : String) : FixedDecimal :=
  match ints s with
  | i :: f :: l => ⟨BitVec.ofInt 8 i, f, l⟩
  | _ => FixedDecimal.zero
def bytesOf (s : String) : List Nat := (ints s).map Int.toNat
def showB (l : List Nat) : String := ",".intercalate (l.map toString)
def showH (l : List FixedDecimal.HashWrite) : String := ",".intercalate (l.map fun w => (reprStr w))
def n (_ : Unit) : String := "-"

def run (line : String) : String :=
  match line.splitOn " " with
  | [op, md, a, b, r, k] =>
    let m : Mode := if md = "d" then .debug else .release
    let D := showO showD showD
    match op with
    | "add" => D (FixedDecimal.addTo m (dec a) (dec b) (dec r))
    | "sub" => D (FixedDecimal.subTo m (dec a) (dec b) (dec r))
    | "mul" => D (FixedDecimal.mulTo m (dec a) (dec b) (dec r))
    | "div" => D (FixedDecimal.divTo m (dec a) (dec b) (dec r) k.toInt!)
    | "rem" => D (FixedDecimal.remTo m (dec a) (dec b) (dec r))
    | "round" => showO n showD (FixedDecimal.round m (dec a) k.toInt!)
    | "roundto" => showO n showD (FixedDecimal.roundTo m (dec a) (dec r) k.toInt!)
    | "cmp" => showO n (fun x => match x with | .lt => "-1" | .eq => "0" | .gt => "1") (FixedDecimal.cmp m (dec a) (dec b))
    | "asi" => showO n toString (FixedDecimal.asI64 m (dec a))
    | "asu" => showO n toString (FixedDecimal.asU64 m (dec a))
    | "fromi" => showO n showD (FixedDecimal.fromI64 m k.toInt!)
    | "fromu" => showO n showD (FixedDecimal.fromU64 k.toInt!)
    | "hash" => showO n (fun l => ",".intercalate (l.map fun
        | FixedDecimal.HashWrite.u8 v => s!"u8:{v}" | .u32 v => s!"u32:{v}")) (FixedDecimal.hash m (dec a))
    | "parse" => showO showD showD (FixedDecimal.fromBytesStr m (dec r) (bytesOf a) (k = "1"))
    | "fmt" => showO n showB (FixedDecimal.toStr m (dec a) k.toInt!)
    | _ => "bad op"
  | _ => "bad line"

def main (args : List String) : IO Unit := do
  let txt ← IO.FS.readFile args.head!
  for line in txt.splitOn "\n" do
    if line ≠ "" then IO.println (run line)
'''


def tables():
    """oracle.py computes the lookup tables; the source spells them out."""
    src = open("/repo/src/utils.rs").read()

    def get(name):
        t = re.search(r"const %s: \[\w+; \d+\] = \[(.*?)\];" % name, src, re.S).group(1)
        t = re.sub(r"b'(\d)'", lambda m: str(ord(m.group(1))), t)
        return [int(x.strip(), 0) for x in t.replace("\n", " ").split(",") if x.strip()]
    assert get("DIV9_TABLE") == o.DIV9 and get("MOD9_TABLE") == o.MOD9
    assert get("BIN2CHAR") == o.BIN2CHAR and get("POW10") == o.POW10


def unit(r, style):
    if style == "wide":
        return r.choice([r.randrange(-2 ** 31, 2 ** 31), r.randrange(0, 2 * 10 ** 9), -1, 2 ** 31 - 1, -2 ** 31, 10 ** 9])
    x = r.random()
    if x < .2:
        return 0
    if x < .35:
        return 999999999
    if x < .45:
        return 500000000 + r.randrange(-1, 2)
    if x < .6:
        return r.randrange(0, 10 ** r.randrange(1, 9))
    return r.randrange(0, 10 ** 9)


def dec(r, style):
    if style == "wild":
        return o.FD(r.randrange(-128, 128), r.randrange(-128, 128), [unit(r, r.choice(["wide", ""])) for _ in range(9)])
    if style == "edge":  # counts where something changes, many zero units, otherwise anything
        cnt = [0, 0, 0, 1, 8, 9, 10, 18, 19, 27, 36, 37, 45, 54, 63, 72, 73, 80, 81, 82, 90, 99, 118, 119, 120, 127]
        l = [unit(r, r.choice(["wide", "", ""])) if r.random() < .5 else 0 for _ in range(9)]
        return o.FD(o.as_i8(r.choice(cnt) | r.choice([0, 0, 0x80])), r.choice(cnt + [-8, -1, -9, -128] * 2), l)
    iu = r.randrange(0, 10)
    fu = r.randrange(0, 10 - iu)
    if r.random() < .5:
        iu, fu = min(iu, 3), min(fu, 3)
    n = iu + fu
    intg = max(0, 9 * iu - r.randrange(0, 9)) if iu else 0
    frac = max(0, 9 * fu - r.randrange(0, 9)) if fu else 0
    l = [unit(r, "" if style == "wf" else r.choice(["wide", "", "", ""])) for _ in range(n)]
    if style != "wf" and r.random() < .3:
        l += [unit(r, "") for _ in range(9 - n)]
    l += [0] * (9 - len(l))
    if fu and style == "wf" and r.random() < .9:
        l[0] -= l[0] % 10 ** (9 * fu - frac)
    top = n - 1
    if iu and style == "wf":
        l[top] %= 10 ** (intg - 9 * (iu - 1))
    return o.FD(o.as_i8(intg | (0x80 if r.random() < .4 else 0)), frac, l)


def text(r):
    x = r.random()
    if x < .1:
        return [r.choice(b"0123456789.+-eE ") for _ in range(r.randrange(0, 12))]
    s = r.choice(["", "", "-", "+"])
    big = r.choice([3, 12, 30, 70, 140, 400])
    dig = lambda k: "".join(r.choice("0123456789000999") for _ in range(k))
    s += dig(r.randrange(0, big))
    if r.random() < .6:
        s += "." + dig(r.randrange(0, big))
    if r.random() < .4:
        s += r.choice("eE") + r.choice(["", "-", "+"]) + r.choice(["", "0", "00"]) + str(r.choice([0, 1, 9, 30, 31, 65, 66, 127, 128, 999, 4294967296, r.randrange(0, 70)]))
    if r.random() < .05:
        s += r.choice(["x", ".", "e", " "])
    return list(s.encode())


def show(d):
    return "%d %d %s" % (d.intg, d.frac, ",".join(map(str, d.lsu)))


def arg(d):
    return ",".join(map(str, [d.intg, d.frac] + d.lsu))


def case(r):
    op = r.choice(["add", "sub", "mul", "div", "div", "rem", "rem", "round", "roundto", "cmp", "asi", "asu", "fromi", "fromu", "hash",
                   "parse", "parse", "fmt"])
    styles = ["wf", "wf", "wf", "loose", "edge", "edge", "wild"]
    style = r.choice(styles)
    a, b, res = dec(r, style), dec(r, style if r.random() < .7 else r.choice(styles)), dec(r, r.choice(["wild", "wf", "edge"]))
    if op in ("asi", "asu") and r.random() < .6:
        a.lsu[4:] = [0] * 5
    k = 0
    if op == "div":
        k = r.choice([0, 4, 4, 4, 9, 30, r.randrange(0, 140), 300, 2 ** 63 - 1, 2 ** 63, 2 ** 64 - 1, 2 ** 63 - 40])
    if op.startswith("round"):
        k = r.choice([r.randrange(-90, 90), r.randrange(-20, 20), r.randrange(0, 40), r.randrange(-300, 300), 2 ** 63 - 1, -2 ** 63, -2 ** 63 + 1, 256])
    if op == "fmt":
        k = r.choice([-1, -1, 0, r.randrange(0, 90), 200, -2, -2 ** 63])
    if op == "fromi":
        k = r.choice([r.randrange(-2 ** 63, 2 ** 63), -2 ** 63, 2 ** 63 - 1, 0, r.randrange(-10 ** 10, 10 ** 10)])
    if op == "fromu":
        k = r.choice([r.randrange(0, 2 ** 64), 2 ** 64 - 1, 0, r.randrange(0, 10 ** 10)])
    if op == "parse":
        k = r.randrange(0, 2)
        if r.random() < .5:
            res = o.FD()
    t = text(r)
    md = r.choice("dr")
    line = " ".join([op, md, (",".join(map(str, t)) if op == "parse" else arg(a)), arg(b), arg(res), str(k)])
    o.DEBUG = md == "d"
    st = "-"
    try:
        if op in ("add", "sub", "mul", "div", "rem"):
            f = getattr(o, op + "_to")
            st = res
            f(a, b, res, k) if op == "div" else f(a, b, res)
            out = show(res)
        elif op == "round":
            o.round_(a, k)
            out = show(a)
        elif op == "roundto":
            o.round_to(a, res, k)
            out = show(res)
        elif op == "cmp":
            out = str(o.cmp(a, b))
        elif op == "asi":
            out = str(o.as_i64(a))
        elif op == "asu":
            out = str(o.as_u64(a))
        elif op == "fromi":
            out = show(o.from_i64(k))
        elif op == "fromu":
            out = show(o.from_u64(k))
        elif op == "hash":
            out = ",".join("%s:%d" % w for w in o.hash_writes(a))
        elif op == "parse":
            st = res
            o.from_bytes_str(res, t, k == 1)
            out = show(res)
        elif op == "fmt":
            out = ",".join(map(str, o.to_string(a, k)))
        out = "ok " + out
    except o.Err as e:
        out = "err %s %s" % (e, st if st == "-" else show(st))
    except o.Panic as e:
        out = "panic %s" % e
    return line, out


def main():
    n = int(sys.argv[1]) if len(sys.argv) > 1 else 20000
    seed = int(sys.argv[2]) if len(sys.argv) > 2 else 1
    tables()
    r = random.Random(seed)
    cases = [c for c in (case(r) for _ in range(n)) if c[1] != "panic diverges"]
    skipped = n - len(cases)
    n = len(cases)
    with tempfile.TemporaryDirectory() as d:
        open(d + "/Runner.lean", "w").write(RUNNER)
        open(d + "/in.txt", "w").write("\n".join(c[0] for c in cases) + "\n")
        p = subprocess.run(["lake", "env", "lean", "--run", d + "/Runner.lean", d + "/in.txt"], cwd=LEAN, capture_output=True, text=True)
    if p.returncode:
        print(p.stdout[:2000], p.stderr[:2000])
        sys.exit(1)
    got = p.stdout.splitlines()
    assert len(got) == n, (len(got), n)
    bad = 0
    tally = {}
    for (line, want), g in zip(cases, got):
        op = line.split(" ")[0]
        key = (op, " ".join(want.split(" ")[:(1 if want.startswith("ok") else 2)]))
        tally[key] = tally.get(key, 0) + 1
        if want != g:
            bad += 1
            if bad <= 10:
                print("MISMATCH", line, "\n  oracle:", want, "\n  model: ", g)
    for k in sorted(tally):
        print(k, tally[k])
    print("cases", n, "seed", seed, "skipped", skipped, "mismatches", bad)
    sys.exit(bad != 0)


if __name__ == "__main__":
    main()
