L=[{'file': 'Verif/Model/Yw7Write.lean', 'defn': 'chTypeEncoding', 'old': '(true, c!"1", c!"1"), (true, c!"1", c!"2"), (true, c!"1", c!"0")]', 'new': '(true, c!"1", c!"1"), (true, c!"1", c!"2"), (true, c!"0", c!"0")]', 'claim': 'C14: <Type> of unused chapters', 'note': 'second run, after adding the named theorems', 'tightened': ['C14_encoding']}, {'file': 'Verif/Model/Yw7Write.lean', 'defn': 'buildProject', 'old': '|> putAlways c!"Bio" n.authorBio', 'new': '|> putAlways c!"Bio" n.authorName', 'claim': 'C20/project data: author bio', 'note': 'second run, after adding the named theorems', 'tightened': ['C46_project']}, {'file': 'Verif/Model/Yw7Write.lean', 'defn': 'buildVars', 'old': 'if st.hasCtr then p else addVar c!"Country" ctr p', 'new': 'if st.hasLng then p else addVar c!"Country" ctr p', 'claim': 'C38: country variable', 'note': 'second run, after adding the named theorems', 'tightened': ['C38_saved', 'C38_project_partial']}, {'file': 'Verif/Model/Yw7Write.lean', 'defn': 'syncScene', 'old': 'some a => s.kwVar.set c!"Field_SceneArcs" (some a)', 'new': 'some _ => s.kwVar', 'claim': 'C20: arcs saved', 'note': 'second run, after adding the named theorems', 'tightened': ['C20_custom']}, {'file': 'Verif/Model/Yw7Read.lean', 'defn': 'readVars', 'old': 'if title = c!"Country" then\n          readVars (match find c!"Desc" e.kids with\n            | some d => (acc.1, d.text, acc.2.2)', 'new': 'if title = c!"Country" then\n          readVars (match find c!"Desc" e.kids with\n            | some d => (d.text, acc.2.1, acc.2.2)', 'claim': 'C38: country read', 'note': 'second run, after adding the named theorems', 'tightened': ['C38_project_partial']}]