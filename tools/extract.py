#!/usr/bin/env python3
"""Read the instruction, directive and register tables of libasm as text."""
import re, glob, os, sys
SRC = os.environ.get('LIBASM_SRC', '/repo/src')

def strip(s):
    s = re.sub(r'/\*.*?\*/', ' ', s, flags=re.S)
    return re.sub(r'//[^\n]*', ' ', s)

def texts():
    t = {}
    for f in glob.glob(SRC + '/text_*.cpp') + glob.glob(SRC + '/text_*.h'):
        s = strip(open(f).read())
        ns = re.findall(r'namespace (\w+) \{', s)
        for m in re.finditer(r'constexpr char (\w+)\[\]\s*(?:PROGMEM)?\s*=?\s*\{?((?:\s*"(?:[^"\\]|\\.)*")+)\}?;', s):
            val = ''.join(re.findall(r'"((?:[^"\\]|\\.)*)"', m.group(2)))
            t.setdefault(m.group(1), set()).add((os.path.basename(f), val))
    return t

def arrays(s):
    """All `constexpr TYPE NAME[] PROGMEM = { ... };` with their line number and body."""
    out = []
    for m in re.finditer(r'constexpr\s+([\w:]+)\s+(\w+)\[\]\s*(?:PROGMEM)?\s*=?\s*\{', s):
        i = m.end(); d = 1
        while d:
            c = s[i]
            if c == '{': d += 1
            elif c == '}': d -= 1
            i += 1
        out.append((m.group(1), m.group(2), s[m.end():i-1], s.count('\n', 0, m.start()) + 1,
                    s.count('\n', 0, i) + 1))
    return out

def rows(body):
    """Top level items of an initializer."""
    items = []; d = 0; cur = ''
    for c in body:
        if c in '({': d += 1
        if c in ')}': d -= 1
        if c == ',' and d == 0:
            items.append(cur.strip()); cur = ''
        else:
            cur += c
    if cur.strip(): items.append(cur.strip())
    return [i for i in items if i]

def keepnl(s):
    s = re.sub(r'/\*.*?\*/', lambda m: '\n' * m.group(0).count('\n'), s, flags=re.S)
    s = re.sub(r'//[^\n]*', ' ', s)
    return re.sub(r'^[ \t]*#.*$', '', s, flags=re.M)

if __name__ == '__main__':
    T = texts()
    print(len(T), [ (k,v) for k,v in T.items() if len({x[1] for x in v})>1])
    for f in sorted(glob.glob(SRC + '/table_*.cpp')):
        raw = keepnl(open(f).read())
        for ty, name, body, l0, l1 in arrays(raw):
            rs = rows(body)
            print(os.path.basename(f), ty, name, len(rs), l0, l1, rs[0][:60] if rs else '')
