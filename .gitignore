lean/.lake/
lean/build/
*.olean
*.ilean
*.trace
