#!/usr/bin/env python3
"""Apply seeded bugs to a scratch copy of the Lean project and record which theorems fail.
usage: seed.py mutations.json results.jsonl   (scratch copy: /tmp/scratch/lean)"""
import json, os, re, shutil, subprocess, sys, threading, time
SRC = "/verif/lean"; DST = "/tmp/scratch/lean"

def sync():
    os.makedirs("/tmp/scratch", exist_ok=True)
    subprocess.run(["rsync", "-a", "--delete", SRC + "/", DST + "/"], check=True) if shutil.which("rsync") else \
        subprocess.run("rm -rf %s && cp -a %s %s" % (DST, SRC, DST), shell=True, check=True)

def enclosing(path, line):
    name = None
    for i, l in enumerate(open(path), 1):
        if i > line: break
        m = re.match(r"\s*(?:private |@\[[^\]]*\]\s*)*(theorem|def|example|instance|lemma|structure|inductive|abbrev)\s*(\S*)", l)
        if m: name = m.group(2) if m.group(1) != "example" else "example@%d" % i
    return name

def watchdog():
    "kill any prover of the scratch build that grows beyond 6 GB (a mutated example can diverge)"
    while True:
        for p in os.listdir("/proc"):
            if not p.isdigit(): continue
            try:
                cmd = open("/proc/%s/cmdline" % p).read()
                if "/bin/lean" not in cmd or "/tmp/scratch" not in cmd: continue
                rss = int(open("/proc/%s/statm" % p).read().split()[1]) * 4096
                if rss > (6 << 30): os.kill(int(p), 9)
            except (OSError, IndexError, ValueError): pass
        time.sleep(1)

def strip_examples(text):
    "examples are tests, not theorems: leave them out of the scratch copy"
    ls = text.split("\n"); out = []; i = 0
    while i < len(ls):
        if ls[i].startswith("example"):
            if out and out[-1].rstrip().endswith("-/"):
                j = len(out) - 1
                while j >= 0 and not out[j].startswith("/-"): j -= 1
                if out[j].startswith("/--"): del out[j:]
            i += 1
            while i < len(ls) and ls[i].strip() != "" : i += 1
        else: out.append(ls[i]); i += 1
    return "\n".join(out)

def main():
    threading.Thread(target=watchdog, daemon=True).start()
    muts = json.load(open(sys.argv[1])); out = sys.argv[2]
    for m in muts:
        p = os.path.join(DST, m["file"]); orig = strip_examples(open(os.path.join(SRC, m["file"])).read())
        n = orig.count(m["old"])
        if n != 1:
            print("SKIP (%d matches):" % n, m["definition"], m["old"][:60]); continue
        open(p, "w").write(orig.replace(m["old"], m["new"]))
        t = time.time()
        failed = []; touched = {m["file"]}
        for attempt in range(8):
            r = subprocess.run(["timeout", "900", "lake", "build"], cwd=DST, capture_output=True, text=True)
            txt = r.stdout + r.stderr
            for g in re.finditer(r"Some required targets logged failures:\n((?:- \S+\n)+)", txt):
                if "error: Verif/" not in txt: failed += ["out of memory or time: " + g.group(1).replace("\n", " ")]
            new = []
            for g in re.finditer(r"error: (Verif/\S+?\.lean):(\d+):", txt):
                f = enclosing(os.path.join(DST, g.group(1)), int(g.group(2)))
                new.append((g.group(1), str(f)))
            for f in new:
                t0 = "%s:%s" % (f[0][6:-5].replace("/", "."), f[1])
                if t0 not in failed: failed.append(t0)
            if not new or not all(f[1].startswith("example@") for f in new): break
            # only examples fail: drop them and see what the theorems say
            for file in {f[0] for f in new}:
                touched.add(file)
                ls = open(os.path.join(DST, file)).read().split("\n")
                for ln in sorted({int(f[1].split("@")[1]) for f in new if f[0] == file}, reverse=True):
                    e = ln - 1
                    while e < len(ls) and not (ls[e].strip() == "" and e > ln - 1): e += 1
                    del ls[ln - 1:e]
                open(os.path.join(DST, file), "w").write("\n".join(ls))
        for file in touched:
            open(os.path.join(DST, file), "w").write(strip_examples(open(os.path.join(SRC, file)).read()))
        survived = r.returncode == 0
        if not survived and not failed: failed = ['?? ' + txt[-300:]]
        rec = dict(definition=m["definition"], edit=m["edit"], claim=m["claim"], theorems_failed=failed,
                   survived=survived, seconds=round(time.time() - t))
        print(("SURVIVED " if survived else "caught   "), m["definition"], "|", m["edit"], "|", m["claim"], "|", failed[:8], rec["seconds"], flush=True)
        open(out, "a").write(json.dumps(rec) + "\n")
if "--sync" in sys.argv:
    sync()
    for d, _, fs in os.walk(DST + "/Verif"):
        for f in fs:
            if f.endswith(".lean"):
                p = os.path.join(d, f); t = open(p).read(); u = strip_examples(t)
                if u != t: open(p, "w").write(u)
    print(subprocess.run(["lake", "build"], cwd=DST, capture_output=True, text=True).stdout[-300:], flush=True)
main()
