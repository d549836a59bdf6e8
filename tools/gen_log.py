#!/usr/bin/env python3
"""Turn the outputs of the seeded-bug runs (/tmp/muts/*.out.jsonl) into /verif/seeded/LOG.jsonl.
The last result per id wins, except that a survivor and its later rerun are both kept."""
import json,glob,os,sys
TIGHT={
 "b4-12":["C53_encryption_choice (new; caught in b5-06)"],"b4-19":["C72_cookie_attributes (caught in b5-07)"],
 "b4-46":["C71_iframe_address (new; caught in b5-08)"],"b4-57":["C85_response_uris (new; b5-09)"],"b4-58":["C85_other_uris_checked (new; b5-10)"],
 "b4-59":["C85_other_uris_checked (new; b5-11)"],"b4-64":["C85_other_uris_checked (new; b5-12)"],"b4-65":["C85_other_uris_checked (new; b5-13)"],
 "b4-66":["C85_other_uris_checked (new; b5-14)"],"b4-67":["C69_credentials_work_partial (b5-15)"],
 "b1-07":["C74_constructor_lifetime (new; caught in b5-01)"],"b3-13":["C83_expired_login_refused (new; b5-03)"],
 "b5-15":["C69_credentials_work_partial: announced expiry, refusal afterwards"],"b5-16":["C69_credentials_work_partial: announced expiry, refusal afterwards"],
}
NOTE={"b1-18":"equivalent edit: nothing to catch","b2-22":"equivalent edit: nothing to catch","b4-06":"equivalent edit (order only)",
 "b3-28":"equivalent: with an empty registered query every lookup fails anyway","b5-31":"equivalent in every reachable state: the stored request is the request",
 "b5-34":"equivalent: the unverified copy is always overwritten or the registration fails"}
if os.path.exists('/verif/tools/log_extra.json'):
    e=json.load(open('/verif/tools/log_extra.json')); TIGHT.update(e.get('tight',{})); NOTE.update(e.get('note',{}))
out=[]
for f in sorted(glob.glob('/tmp/muts/b*.out.jsonl')):
    last={}
    for l in open(f):
        d=json.loads(l); last[d['id']]=d
    for k in sorted(last, key=lambda x:(x.split('-')[0],int(x.split('-')[1]))):
        d=last[k]
        r={"id":k,"definition":d["file"]+": "+d["definition"],"edit":d["edit"],"claim":d["claim"],"failed":d["failed"],
           "examples_failed":d["examples"],"modules_failed":d["modules"],"tightened":TIGHT.get(k,[])}
        if k in NOTE: r["note"]=NOTE[k]
        elif d["ok"] and not r["tightened"]: print("SURVIVOR without explanation",k,d["definition"],d["edit"],d["claim"])
        out.append(r)
# The automatic run: every definition of the model, one edit at a time (auto_out), survivors again after tightening (auto_re*).
import re
def plan():
    """definition -> claims whose theorems are in a file that mentions it"""
    ns={}; exec(open('/verif/tools/claims.py').read(),ns)
    C=next(v for v in ns.values() if isinstance(v,dict) and 'C01' in v)
    where={}; text={}
    for f in glob.glob('/verif/lean/Verif/Props/*.lean'):
        t=open(f).read(); text[f]=set(re.findall(r"[A-Za-z_][A-Za-z0-9_'.]*",t))
        for m in re.findall(r'^theorem (\S+)',t,re.M): where[m]=f
    files={}
    for c,v in C.items():
        for t in v[1]:
            if t in where: files.setdefault(where[t],set()).add(c)
    return lambda d: sorted({c for f,cs in files.items() if d in text[f] for c in cs},key=lambda c:int(c[1:]))
EQUIV={("CookieAttr.lean","deleteCookie"):"equivalent: Max-Age -1 and 0 both come out as 'delete' in the model's attribute",
 ("Logout.lean","endAuthn"):"equivalent: no authentication method is configured there, so the clock is not used",
 ("UserInfo.lean","configuredLookup"):"equivalent: the default country code only matters for hints of a form that is matched before",
 ("Storage.lean","delGrantsOn"):"equivalent: an error is only raised before anything is written",
 ("Deliver.lean","authzStyle"):"equivalent: the request format only matters if it is one of the JOSE formats",
 ("Grant.lean","Grant.getSpecAllowed"):"the definition was removed from the model (unused)",
 ("Metadata.lean","allowRefresh"):"the line was rewritten in the model, which now follows the code; C91_refresh_allowed fixes its value"}
AUTOTIGHT={("UsageLookup.lean","defaultUsage"):["C172_default_rules (new): states all entries"]}
try:
    P=plan(); rounds=[[json.loads(l) for l in open('/tmp/muts/'+f)] for f in ('auto_out.jsonl','auto_re.jsonl','auto_re2.jsonl','auto_re3.jsonl')]
    key=lambda a:(a['file'],a['definition'],a['op'],a['old'],a['new'].strip(),a['line'] if False else 0)
    n=0
    for rnd,R in enumerate(rounds):
        later={}
        for Q in rounds[rnd+1:]:
            for a in Q:
                if a['status']!='SURVIVED' and (a['failed'] or a['examples']) and key(a) not in later: later[key(a)]=a['failed'] or a['examples']
        for a in R:
            if a['status']=='STILLBORN': continue
            n+=1
            ids=sorted({m for t in a['failed'] for m in re.findall(r'^C\d+',t)})
            near=P(a['definition']) or P(a['definition'].split('.')[-1])
            claim=', '.join(ids) if ids else ('through its lemmas: '+', '.join(near[:10]) if near else 'claims about Model/'+a['file'].split('.')[0]+' (through lemmas)')
            r={"id":"auto-%04d"%n,"definition":"Model/"+a['file']+": "+a['definition'],"edit":a['op']+": "+a['old'].strip()[:160]+"  ==>  "+a['new'].strip()[:160],
               "claim":claim,"failed":a['failed'],"examples_failed":a['examples'],"modules_failed":a['examples'] or (["(proof)"] if a['failed'] else []),
               "tightened":(later.get(key(a)) or AUTOTIGHT.get((a['file'],a['definition']),[])) if a['status']=='SURVIVED' else []}
            if a['status']=='SURVIVED' and not r['tightened']:
                r['note']=EQUIV.get((a['file'],a['definition']),'?')
                if r['note']=='?': print('auto survivor without explanation',a)
            out.append(r)
except FileNotFoundError: print("no automatic run")
with open('/verif/seeded/LOG.jsonl','w') as h:
    for r in out: h.write(json.dumps(r,ensure_ascii=False)+'\n')
print(len(out),"entries,",sum(1 for r in out if not r["modules_failed"]),"survivors")
