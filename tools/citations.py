"""Checks the citations of the model against /repo.

1. Every `file.rs:a-b `name`` in a comment of a definition: the lines exist and contain the name.
2. Lists the lines of /repo (outside tests, imports and comments) that no definition cites.
"""
import glob, os, re
repo = {p: open(p).read().split('\n') for p in glob.glob('/repo/src/**/*.rs', recursive=True)}
cited = {p: set() for p in repo}
here = os.path.join(os.path.dirname(os.path.abspath(__file__)), '../lean/Verif')
wrong = n = 0
for f in sorted(glob.glob(here + '/Model/*.lean')) + [here + '/Base.lean']:
    for doc in re.findall(r'/--(.*?)-/', open(f).read(), re.S):
        for c in re.finditer(r'([a-z_/]+\.rs):(\d+)(?:-(\d+))?((?:, \d+(?:-\d+)?)*)(?:\s*`([^`]+)`)?', doc):
            path = [p for p in repo if p.endswith('/' + c.group(1))]
            a, b = int(c.group(2)), int(c.group(3) or c.group(2))
            n += 1
            if len(path) != 1 or b > len(repo[path[0]]):
                print('wrong file or range:', os.path.basename(f), c.group(0)); wrong += 1; continue
            cited[path[0]] |= set(range(a, b + 1))
            for x, y in re.findall(r', (\d+)(?:-(\d+))?', c.group(4)):
                cited[path[0]] |= set(range(int(x), int(y or x) + 1))
            text = '\n'.join(repo[path[0]][a - 1:b])
            name = (c.group(5) or '').split('::')[-1]
            if any(w not in text for w in re.findall(r'[A-Za-z_]+', name)):
                print('name not there:', os.path.basename(f), c.group(0)); wrong += 1
print(n, 'citations,', wrong, 'wrong')
for p, ls in sorted(repo.items()):
    for i, l in enumerate(ls, 1):
        if '#[cfg(test)]' in l: break
        t = l.strip()
        if t and t not in '{}' and not re.match(r'//|#|(pub )?use |(pub )?mod |impl|where', t) and i not in cited[p]:
            print('not cited:', p[5:] + ':' + str(i), t)
