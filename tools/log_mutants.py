"""Write seeded/LOG.jsonl from the results of the mutation runs (a scratch copy outside /verif)."""
import json, sys, os
tight = {
 "tm7": ["C76_inside"],
 "r11": ["C04_only_value_errors"],
 "p11": ["C12_segments", "C13_strings"],
 "d10": ["C46_multi"],
 "g10": ["C48_written", "C49_accepted_partial"],
 "g13": ["C48_written", "C49_accepted_partial"],
 "g18": ["C48_written", "C49_accepted_partial"],
 "rb2": ["C62_taken", "C62_same"],
 "ti1": ["C74_construct_missing"],
 "rb3": ["C62_taken", "C62_same"],
}
note = {"ti1": "survived at first: in valid documents the attributes are always there; C74_construct_missing was added, see ti36, the same edit afterwards", "tb18": "equivalent: no class accepts null, so nothing changes", "wv2": "equivalent: a string has no items that are References, so nothing is checked either way",
  "xs3": "equivalent: a trailing slash then gives empty parts, which the walk skips, and a path of slashes only is emptied by lstrip"}
out = os.path.join(os.path.dirname(os.path.abspath(__file__)), "..", "seeded", "LOG.jsonl")
seen=set()
with open(out, "w") as f:
    for l in open(sys.argv[1]):
        r = json.loads(l); m = r["mu"]
        if r["id"] in seen: continue
        seen.add(r["id"])
        f.write(json.dumps({"id": r["id"], "definition": m["definition"], "edit": m["edit"], "change": [[a, b, c] for a, b, c in m["edits"]],
          "claim": m["claim"], "survived": r["ok"], "failed_first": r["direct"], "failed_claims": r["claims"],
          "failed_examples": len(r["examples"]), "tightened": tight.get(r["id"], []), **({"note": note[r["id"]]} if r["id"] in note else {})}) + "\n")
print(len(seen))
