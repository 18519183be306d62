#!/usr/bin/env python3
"""Generate lean/Verif/Tables/Data/*.lean from the tables in /repo/src, read as text."""
import sys
sys.path.insert(0, __file__.rsplit('/', 1)[0])
from extract import *
OUT = '/verif/lean/Verif/Tables/Data'
T = texts()

def chars(s):
    def one(c):
        return {"'": r"'\''", '\\': r"'\\'"}.get(c, f"'{c}'")
    return '[' + ', '.join(one(c) for c in s) + ']'

def text(name, local):
    if name in local: return local[name]
    return next(iter(T[name]))[1]

def number(x):
    x = x.strip()
    if re.fullmatch(r'0[0-7]+', x): return int(x, 8)
    if re.fullmatch(r'0x[0-9A-Fa-f]+|\d+', x): return int(x, 0)
    return None

def args(call):
    m = re.match(r'(\w*)\s*[({](.*)[)}]$', call, re.S)
    return m.group(1), [a.strip() for a in rows(m.group(2))]

def cpuname(s):
    return s[0].upper() + s[1:]

def main():
    mods = []
    for f in sorted(glob.glob(SRC + '/table_*.cpp')):
        base = os.path.basename(f)
        fam = cpuname(base[len('table_'):-4])
        raw = keepnl(open(f).read())
        local = dict(re.findall(r'constexpr char (\w+)\[\]\s*PROGMEM\s*=\s*"(.*?)"', raw))
        consts = {k: number(v) for k, v in re.findall(r'constexpr [\w:]+ (\w+) = (\w+);', raw)}
        out = [f'import Verif.Tables.Row', f'/-', f'Generated by tools/gen_tables.py from src/{base}: names, codes, operands and indexes as written',
               'there. Do not edit.', '-/', f'namespace Libasm.Tables.{fam}', 'open Table', '']
        pagesof = {}; cpus = []; used = []
        for ty, name, body, l0, l1 in arrays(raw):
            rs = rows(body)
            if ty == 'Entry':
                out.append(f'/-- src/{base}:{l0}-{l1} -/')
                out.append(f'def {name} : List Row := [')
                ls = []
                for r in rs:
                    mac, a = args(r)
                    op = number(a[0])
                    assert op is not None, (f, r)
                    nm = [x for x in a if x.startswith('TEXT_')]
                    assert len(nm) == 1, (f, r)
                    rest = [mac] + [x for x in a[1:] if not x.startswith('TEXT_')]
                    ls.append(f'  ⟨{op:#x}, {chars(text(nm[0], local))}, [' + ', '.join(f'"{x}"' for x in rest) + ']⟩')
                out.append(',\n'.join(ls) + ']\n')
            elif ty == 'uint8_t' and rs and number(rs[0]) is not None:
                out.append(f'/-- src/{base}:{l0}-{l1} -/')
                out.append(f'def {name} : List Nat := [')
                ns = [str(number(x)) for x in rs]
                out.append('\n'.join('  ' + ', '.join(ns[i:i+16]) + ',' for i in range(0, len(ns), 16)).rstrip(',') + ']\n')
            elif ty == 'EntryPage':
                ps = []
                for r in rs:
                    _, a = args(r)
                    m = re.findall(r'ARRAY_RANGE\((\w+)\)', r)
                    assert len(m) == 2
                    rest = [x for x in a if not x.startswith('ARRAY_RANGE')]
                    pre = 0
                    if rest and number(rest[0]) is not None:
                        pre = number(rest[0]); rest = rest[1:]
                    p = f'⟨{pre:#x}, [' + ', '.join(f'"{x}"' for x in rest) + f'], {m[0]}, {m[1]}⟩'
                    ps.append(p)
                    if (m[0], m[1]) not in used: used.append((m[0], m[1]))
                out.append(f'/-- src/{base}:{l0}-{l1} -/')
                out.append(f'def {name} : List (Page Row) := [')
                out.append(',\n'.join('  ' + p for p in ps) + ']\n')
                pagesof[name] = ps
            elif ty in ('Cpu', 'Fpu', 'Mmu'):
                for r in rs:
                    _, a = args(r)
                    nm = text(a[1], local)
                    if a[2].startswith('ARRAY_RANGE'):
                        pg = re.match(r'ARRAY_RANGE\((\w+)\)', a[2]).group(1)
                    elif a[2].startswith('EMPTY_RANGE'):
                        pg = '[]'
                    else:
                        m0 = re.match(r'&(\w+)\[(\d+)\]', a[2]); m1 = re.match(r'&(\w+)\[(\d+)\]', a[3])
                        pg = f'(({m0.group(1)}.take {m1.group(2)}).drop {m0.group(2)})'
                    cpus.append((name, l0, l1, nm, pg))
        out.append(f'/-- The processors of src/{base}: ' + ', '.join(dict.fromkeys(f'{n} {a}-{b}' for n, a, b, _, _ in cpus)) + ' -/')
        out.append('def cpus : List Cpu := [')
        out.append(',\n'.join(f'  ⟨{chars(nm)}, {pg}⟩' for _, _, _, nm, pg in cpus) + ']\n')
        for t, i in used:
            out.append(f'theorem {t}_{i} (n : Nat) (x : List String) : PageOk ⟨n, x, {t}, {i}⟩ :=')
            out.append(f'  pageB_sound ⟨n, x, {t}, {i}⟩ (show pageB ⟨0, [], {t}, {i}⟩ = true by decide +kernel)\n')
        for pg, ps in pagesof.items():
            out.append(f'theorem {pg}_ok : ∀ p ∈ {pg}, PageOk p :=')
            out.append('  ' + ' <| '.join('List.forall_mem_cons.mpr <| And.intro (' + re.search(r', (\w+), (\w+)⟩', p).expand(r'\1_\2') + ' _ _)' for p in ps) + ' nofun\n')
        def ok(pg):
            if pg == '[]': return 'nofun'
            if pg.startswith('(('):
                n = re.match(r'\(\((\w+)', pg).group(1)
                return f'(fun p hp => {n}_ok p (List.mem_of_mem_take (List.mem_of_mem_drop hp)))'
            return pg + '_ok'
        out.append('theorem cpus_ok : ∀ c ∈ cpus, ∀ p ∈ c.pages, PageOk p :=')
        out.append('  ' + ' <| '.join(f'List.forall_mem_cons.mpr <| And.intro {ok(pg)}' for _, _, _, _, pg in cpus) + ' nofun\n')
        out.append(f'end Libasm.Tables.{fam}')
        open(f'{OUT}/{fam}.lean', 'w').write('\n'.join(out) + '\n')
        mods.append(fam)
    # directive and register tables
    nts = []
    for f in sorted(glob.glob(SRC + '/asm_*.cpp') + glob.glob(SRC + '/reg_*.cpp')):
        raw = keepnl(open(f).read())
        local = dict(re.findall(r'constexpr char (\w+)\[\]\s*PROGMEM\s*=\s*"(.*?)"', raw))
        for ty, name, body, l0, l1 in arrays(raw):
            if ty in ('Pseudo', 'NameEntry'):
                ns = [text(args(r)[1][0], local) for r in rows(body)]
                nts.append((f'src/{os.path.basename(f)}:{l0}-{l1}', os.path.basename(f)[:-4] + '_' + name, ns))
    out = ['import Verif.Tables.Row', '/-', 'Generated by tools/gen_tables.py: the names of the directive tables (src/asm_*.cpp) and of the',
           'register, condition code and flag tables (src/reg_*.cpp). Do not edit.', '-/', 'namespace Libasm.Tables.Names', '']
    for w, n, ns in nts:
        out.append(f'/-- {w} -/')
        out.append(f'def {n} : NameTable := ⟨"{w}", [')
        out.append(',\n'.join('  ' + chars(x) for x in ns) + ']⟩\n')
    out.append('def tables : List NameTable := [')
    out.append(',\n'.join('  ' + n for _, n, _ in nts) + ']\n')
    out.append('theorem tables_ok : tables.all tableB = true := by decide +kernel\n')
    out.append('end Libasm.Tables.Names')
    open(f'{OUT}/Names.lean', 'w').write('\n'.join(out) + '\n')
    print(mods, len(nts))
main()
